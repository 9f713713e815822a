import Verif.Sco.Spec
/-! Helper lemmas for the choice of link parameters. -/

namespace Verif.Sco

/-- A usable packet of the code's table. -/
def ofType (k : EscoType) : Packet := ⟨k.payload, k.slots⟩

theorem accepted_iff (t : UInt16) (q : Packet) :
    (q ∈ accepted t ∧ q.length ≠ 0) ↔ ∃ k : EscoType, k.exchange.Allowed t ∧ q = ofType k := by
  simp only [accepted, List.mem_append]
  constructor
  · rintro ⟨h, hl⟩
    rcases h with ((((((h | h) | h) | h) | h) | h) | h) | h
    · simp at h; subst h; simp at hl
    · split at h <;> simp at h; exact ⟨.ev3, by assumption, h⟩
    · split at h <;> simp at h; exact ⟨.ev4, by assumption, h⟩
    · split at h <;> simp at h; exact ⟨.ev5, by assumption, h⟩
    · split at h <;> simp at h; exact ⟨.ev3_2, by assumption, h⟩
    · split at h <;> simp at h; exact ⟨.ev5_2, by assumption, h⟩
    · split at h <;> simp at h; exact ⟨.ev3_3, by assumption, h⟩
    · split at h <;> simp at h; exact ⟨.ev5_3, by assumption, h⟩
  · rintro ⟨k, hk, rfl⟩
    cases k <;> simp only [EscoType.exchange, EscoType.Allowed] at hk <;>
      simp [ofType, EscoType.payload, EscoType.slots, ev3, ev4, ev5, no2Ev3, no3Ev3, no2Ev5,
        no3Ev5, hk]

theorem combinations_iff (t : UInt16) (c : Packet × Packet) :
    c ∈ combinations t ↔ c.1 ∈ accepted t ∧ c.2 ∈ accepted t := by
  simp only [combinations, List.mem_flatMap, List.mem_map]
  constructor
  · rintro ⟨tx, h1, rx, h2, rfl⟩; exact ⟨h1, h2⟩
  · rintro ⟨h1, h2⟩; exact ⟨c.1, h1, c.2, h2, rfl⟩

/-- Fractions: transitivity of comparison by cross-multiplication. -/
theorem cross_trans {a b c d e f : Nat} (hd : 0 < d) (h1 : a * d ≤ c * b) (h2 : c * f ≤ e * d) :
    a * f ≤ e * b := by
  have h3 : a * d * f ≤ c * b * f := Nat.mul_le_mul_right f h1
  have h4 : c * f * b ≤ e * d * b := Nat.mul_le_mul_right b h2
  have h5 : (a * f) * d ≤ (e * b) * d := by
    calc (a * f) * d = a * d * f := by rw [Nat.mul_right_comm]
      _ ≤ c * b * f := h3
      _ = c * f * b := by rw [Nat.mul_right_comm]
      _ ≤ e * d * b := h4
      _ = (e * b) * d := by rw [Nat.mul_right_comm]
  exact Nat.le_of_mul_le_mul_right h5 hd

/-- What the double loop computes. -/
theorem fold_best (p : ConnParams) : ∀ (l : List (Packet × Packet)) (b : Best), 0 < b.den →
    (b.params = none → b.num = 1 ∧ b.den = 1) → (∀ c ∈ l, 0 < c.1.slots) →
    ∀ r, r = l.foldl (consider p) b →
    0 < r.den ∧
    (∀ c ∈ l, valid p c.1 c.2 = true →
      r.num * interval p c.1 c.2 ≤ transmissionWindow p c.1 c.2 * r.den) ∧
    (r.num * b.den ≤ b.num * r.den) ∧
    (r = b ∨ ∃ c ∈ l, valid p c.1 c.2 = true ∧
      r = ⟨transmissionWindow p c.1 c.2, interval p c.1 c.2, some (escoParams p c.1 c.2)⟩) ∧
    (r.params = none → b.params = none ∧ ∀ c ∈ l, valid p c.1 c.2 = false) := by
  intro l
  induction l with
  | nil => intro b hd hb _ r hr; subst hr; simp [hd]
  | cons c l ih =>
    intro b hd hb hs r hr
    simp only [List.foldl_cons] at hr
    have hs' : ∀ c ∈ l, 0 < c.1.slots := fun c hc => hs c (List.mem_cons_of_mem _ hc)
    by_cases hv : valid p c.1 c.2 = true
    · have hw : transmissionWindow p c.1 c.2 ≤ interval p c.1 c.2 := by
        simp only [valid, Bool.and_eq_true, decide_eq_true_eq] at hv; exact hv.1.2
      have hi : 0 < interval p c.1 c.2 := by
        have := hs c List.mem_cons_self
        simp only [transmissionWindow] at hw
        omega
      by_cases hc : transmissionWindow p c.1 c.2 * b.den ≤ b.num * interval p c.1 c.2
      · have hcb : consider p b c =
            ⟨transmissionWindow p c.1 c.2, interval p c.1 c.2, some (escoParams p c.1 c.2)⟩ := by
          simp [consider, hv, hc]
        rw [hcb] at hr
        obtain ⟨r1, r2, r3, r4, r5⟩ := ih _ hi (by simp) hs' r hr
        refine ⟨r1, ?_, ?_, ?_, ?_⟩
        · intro c' hc' hv'
          rcases List.mem_cons.mp hc' with rfl | hc'
          · exact r3
          · exact r2 c' hc' hv'
        · exact cross_trans hi r3 hc
        · rcases r4 with r4 | ⟨c', hc', r4⟩
          · exact Or.inr ⟨c, List.mem_cons_self, hv, r4⟩
          · exact Or.inr ⟨c', List.mem_cons_of_mem _ hc', r4⟩
        · intro hn; have := (r5 hn).1; simp at this
      · have hcb : consider p b c = b := by simp [consider, hv, hc]
        rw [hcb] at hr
        obtain ⟨r1, r2, r3, r4, r5⟩ := ih _ hd hb hs' r hr
        refine ⟨r1, ?_, r3, ?_, ?_⟩
        · intro c' hc' hv'
          rcases List.mem_cons.mp hc' with rfl | hc'
          · exact cross_trans hd r3 (by omega)
          · exact r2 c' hc' hv'
        · rcases r4 with r4 | ⟨c', hc', r4⟩
          · exact Or.inl r4
          · exact Or.inr ⟨c', List.mem_cons_of_mem _ hc', r4⟩
        · intro hn
          have hbn := (r5 hn).1
          obtain ⟨h1, h2⟩ := hb hbn
          rw [h1, h2] at hc
          omega
    · have hcb : consider p b c = b := by simp [consider, hv]
      rw [hcb] at hr
      obtain ⟨r1, r2, r3, r4, r5⟩ := ih _ hd hb hs' r hr
      refine ⟨r1, ?_, r3, ?_, ?_⟩
      · intro c' hc' hv'
        rcases List.mem_cons.mp hc' with rfl | hc'
        · exact absurd hv' hv
        · exact r2 c' hc' hv'
      · rcases r4 with r4 | ⟨c', hc', r4⟩
        · exact Or.inl r4
        · exact Or.inr ⟨c', List.mem_cons_of_mem _ hc', r4⟩
      · intro hn
        refine ⟨(r5 hn).1, ?_⟩
        intro c' hc'
        rcases List.mem_cons.mp hc' with rfl | hc'
        · simpa using hv
        · exact (r5 hn).2 c' hc'

theorem accepted_slots (t : UInt16) (q : Packet) (h : q ∈ accepted t) : 0 < q.slots := by
  by_cases hl : q.length = 0
  · simp only [accepted, List.mem_append] at h
    rcases h with ((((((h | h) | h) | h) | h) | h) | h) | h
    · simp at h; subst h; simp
    all_goals (split at h <;> simp at h; subst h; simp)
  · obtain ⟨k, -, rfl⟩ := (accepted_iff t q).mp ⟨h, hl⟩
    cases k <;> simp [ofType, EscoType.slots]

theorem retransmission_eq (p : ConnParams) (tx rx : EscoType) :
    retransmission p (ofType tx) (ofType rx) = retransmissionSlots p.effort (tx.slots + rx.slots) := by
  simp only [retransmission, retransmissionSlots, ofType, effortNone, effortPower, effortQuality]
  by_cases h0 : p.effort = 0
  · simp [h0]
  · simp only [h0, if_false]
    by_cases h1 : p.effort = 1
    · simp only [h1, if_true]; omega
    · simp only [h1, if_false]
      by_cases h2 : p.effort = 2
      · simp only [h2, if_true]; omega
      · simp [h2]

theorem window_eq (p : ConnParams) (tx rx : EscoType) :
    transmissionWindow p (ofType tx) (ofType rx) = windowSlots p.effort tx rx := by
  simp only [transmissionWindow, retransmission_eq, windowSlots]
  rfl

/-- The interval of the code is the greatest that satisfies the constraints on intervals. -/
theorem interval_spec (p : ConnParams) (h1 : p.txBandwidth ≠ 0) (h2 : p.rxBandwidth ≠ 0)
    (tx rx : EscoType) :
    let i := interval p (ofType tx) (ofType rx)
    (i % 2 = 0 ∧ i ≤ 254 ∧ p.txBandwidth.toNat * i ≤ 1600 * tx.payload ∧
      p.rxBandwidth.toNat * i ≤ 1600 * rx.payload) ∧
    ∀ j, j % 2 = 0 → j ≤ 254 → p.txBandwidth.toNat * j ≤ 1600 * tx.payload →
      p.rxBandwidth.toNat * j ≤ 1600 * rx.payload → j ≤ i := by
  have b1 : 0 < p.txBandwidth.toNat := by
    rcases Nat.eq_zero_or_pos p.txBandwidth.toNat with h | h
    · exact absurd (UInt32.toNat_inj.mp (by simpa using h)) h1
    · exact h
  have b2 : 0 < p.rxBandwidth.toNat := by
    rcases Nat.eq_zero_or_pos p.rxBandwidth.toNat with h | h
    · exact absurd (UInt32.toNat_inj.mp (by simpa using h)) h2
    · exact h
  simp only [interval, ofType]
  generalize hm1 : 1600 * tx.payload / p.txBandwidth.toNat = m1
  generalize hm2 : 1600 * rx.payload / p.rxBandwidth.toNat = m2
  have k1 : ∀ j, p.txBandwidth.toNat * j ≤ 1600 * tx.payload ↔ j ≤ m1 := by
    intro j; rw [← hm1, Nat.le_div_iff_mul_le b1, Nat.mul_comm]
  have k2 : ∀ j, p.rxBandwidth.toNat * j ≤ 1600 * rx.payload ↔ j ≤ m2 := by
    intro j; rw [← hm2, Nat.le_div_iff_mul_le b2, Nat.mul_comm]
  simp only [k1, k2]
  refine ⟨⟨?_, ?_, ?_, ?_⟩, ?_⟩
  · omega
  · omega
  · omega
  · omega
  · intro j e1 e2 e3 e4
    omega

theorem valid_iff (p : ConnParams) (h1 : p.txBandwidth ≠ 0) (h2 : p.rxBandwidth ≠ 0)
    (tx rx : EscoType) (allows : EscoType → Prop) (ha : allows tx) (hb : allows rx) :
    valid p (ofType tx) (ofType rx) = true ↔
      Admissible p allows tx rx (interval p (ofType tx) (ofType rx)) := by
  obtain ⟨⟨i1, i2, i3, i4⟩, -⟩ := interval_spec p h1 h2 tx rx
  have t0 : tx.payload ≠ 0 := by cases tx <;> simp [EscoType.payload]
  have r0 : rx.payload ≠ 0 := by cases rx <;> simp [EscoType.payload]
  simp only [valid, Bool.and_eq_true, decide_eq_true_eq, window_eq]
  constructor
  · rintro ⟨⟨-, hw⟩, hl⟩
    exact ⟨ha, hb, i1, i2, i3, i4, hw, by omega⟩
  · intro h
    refine ⟨⟨⟨t0, r0⟩, h.fits⟩, ?_⟩
    have := h.latency
    omega

/-- An admissible choice gives a valid combination, at least as good. -/
theorem admissible_valid (p : ConnParams) (h1 : p.txBandwidth ≠ 0) (h2 : p.rxBandwidth ≠ 0)
    (allows : EscoType → Prop) (tx rx : EscoType) (i : Nat) (h : Admissible p allows tx rx i) :
    valid p (ofType tx) (ofType rx) = true ∧ i ≤ interval p (ofType tx) (ofType rx) := by
  have hi := (interval_spec p h1 h2 tx rx).2 i h.even h.small h.txCarries h.rxCarries
  refine ⟨?_, hi⟩
  obtain ⟨⟨i1, i2, i3, i4⟩, -⟩ := interval_spec p h1 h2 tx rx
  rw [valid_iff p h1 h2 tx rx allows h.txAllowed h.rxAllowed]
  exact ⟨h.txAllowed, h.rxAllowed, i1, i2, i3, i4, Nat.le_trans h.fits hi, h.latency⟩

theorem packetLength_spec (b : UInt32) (i len : Nat) (h : b.toNat * i ≤ 1600 * len) (hl : len ≤ 540) :
    b.toNat * i ≤ 1600 * (packetLength b i).toNat ∧
    1600 * (packetLength b i).toNat < b.toNat * i + 1600 ∧ (packetLength b i).toNat ≤ len := by
  have e : (packetLength b i).toNat = (b.toNat * i + 1599) / 1600 := by
    simp only [packetLength, UInt16.toNat_ofNat']
    generalize b.toNat * i = x at *
    rw [Nat.mod_eq_of_lt (a := x + 1600 - 1) (by omega), Nat.mod_eq_of_lt (by omega)]
    rfl
  rw [e]
  generalize b.toNat * i = x at *
  omega

theorem retransmissionSlots_le (e : UInt8) (n : Nat) : retransmissionSlots e n ≤ 2 * n := by
  unfold retransmissionSlots
  split
  · omega
  · split <;> omega

end Verif.Sco
