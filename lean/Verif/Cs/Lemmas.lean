import Verif.Cs.Spec
/-! # Lemmas about channel maps and configurations -/
namespace Verif.Cs

theorem countP_octets (bs : List (BitVec 8)) :
    (List.range (8 * bs.length)).countP (fun ch => (bs.getD (ch / 8) 0).getLsbD (ch % 8)) =
      (bs.map popcount).sum := by
  induction bs with
  | nil => rfl
  | cons b bs ih =>
    have h : 8 * (b :: bs).length = 8 + 8 * bs.length := by simp; omega
    rw [h, List.range_add, List.countP_append, List.countP_map]
    have h1 : (List.range 8).countP (fun ch => ((b :: bs).getD (ch / 8) 0).getLsbD (ch % 8)) = popcount b := by
      unfold popcount
      apply List.countP_congr
      intro x hx
      have hx : x < 8 := by simpa using hx
      have h1 : x / 8 = 0 := by omega
      have h2 : x % 8 = x := by omega
      rw [h1, h2]; rfl
    have h2 : (List.range (8 * bs.length)).countP
        ((fun ch => ((b :: bs).getD (ch / 8) 0).getLsbD (ch % 8)) ∘ (8 + ·)) = (bs.map popcount).sum := by
      rw [← ih]
      apply List.countP_congr
      intro x _
      have h1 : (8 + x) / 8 = x / 8 + 1 := by omega
      have h2 : (8 + x) % 8 = x % 8 := by omega
      simp only [Function.comp, h1, h2, List.getD_cons_succ]
    rw [h1, h2]; simp

theorem channels_eq (m : ChannelMap) : channels m = (m.toList.map popcount).sum := by
  have h := countP_octets m.toList
  rw [show 8 * m.toList.length = 80 by simp] at h
  exact h

theorem vector_ten (m : ChannelMap) : ∃ a b c d e f g h i j, m = #v[a, b, c, d, e, f, g, h, i, j] := by
  obtain ⟨⟨l⟩, hl⟩ := m
  match l, hl with
  | [a, b, c, d, e, f, g, h, i, j], _ => exact ⟨a, b, c, d, e, f, g, h, i, j, rfl⟩

theorem all_octets {P : BitVec 8 → Prop} (h : ∀ n : Fin 256, P (BitVec.ofFin n)) (b : BitVec 8) : P b :=
  h b.toFin

theorem and_3 (b : BitVec 8) : b &&& 3 = 0 ↔ b.getLsbD 0 = false ∧ b.getLsbD 1 = false :=
  all_octets (P := fun b => b &&& 3 = 0 ↔ b.getLsbD 0 = false ∧ b.getLsbD 1 = false) (by decide +kernel) b

theorem and_80 (b : BitVec 8) : b &&& 0x80 = 0 ↔ b.getLsbD 7 = false :=
  all_octets (P := fun b => b &&& 0x80 = 0 ↔ b.getLsbD 7 = false) (by decide +kernel) b

theorem and_60 (b : BitVec 8) : b &&& 0x60 = 0 ↔ b.getLsbD 5 = false ∧ b.getLsbD 6 = false :=
  all_octets (P := fun b => b &&& 0x60 = 0 ↔ b.getLsbD 5 = false ∧ b.getLsbD 6 = false) (by decide +kernel) b

theorem and_E0 (b : BitVec 8) : b &&& 0xE0 = 0 ↔ b.getLsbD 5 = false ∧ b.getLsbD 6 = false ∧ b.getLsbD 7 = false :=
  all_octets (P := fun b => b &&& 0xE0 = 0 ↔ b.getLsbD 5 = false ∧ b.getLsbD 6 = false ∧ b.getLsbD 7 = false)
    (by decide +kernel) b

theorem mapOk_iff (mask : List (BitVec 8)) (m : ChannelMap) (hm : mask.length = 10) :
    mapOk mask m = true ↔ (∀ i < 10, m.toList.getD i 0 &&& mask.getD i 0 = 0) ∧ 15 ≤ channels m := by
  have key : ∀ (bs rs : List (BitVec 8)) (n : Nat), bs.length = rs.length →
      countChannels bs rs n = if ∀ i < bs.length, bs.getD i 0 &&& rs.getD i 0 = 0
        then some (n + (bs.map popcount).sum) else none := by
    intro bs
    induction bs with
    | nil => intro rs n h; cases rs <;> simp_all [countChannels]
    | cons b bs ih =>
      intro rs n h
      cases rs with
      | nil => simp at h
      | cons r rs =>
        simp only [countChannels]
        by_cases hb : b &&& r = 0
        · rw [if_neg (by simp [hb]), ih rs _ (by simpa using h)]
          by_cases hall : ∀ i < bs.length, bs.getD i 0 &&& rs.getD i 0 = 0
          · rw [if_pos hall, if_pos]
            · simp [Nat.add_assoc]
            · intro i hi
              cases i with
              | zero => exact hb
              | succ i => exact hall i (by simpa using hi)
          · rw [if_neg hall, if_neg]
            intro h'
            exact hall (fun i hi => h' (i + 1) (by simpa using hi))
        · rw [if_pos hb, if_neg]
          intro h'
          exact hb (h' 0 (by simp))
  have h := key m.toList mask 0 (by simp [hm])
  unfold mapOk
  rw [h, channels_eq]
  by_cases hall : ∀ i < m.toList.length, m.toList.getD i 0 &&& mask.getD i 0 = 0
  · rw [if_pos hall]
    have : ∀ i < 10, m.toList.getD i 0 &&& mask.getD i 0 = 0 := by simpa using hall
    simp only [Nat.zero_add, Bool.not_eq_true', decide_eq_false_iff_not, Nat.not_lt]
    exact ⟨fun h => ⟨this, h⟩, fun h => h.2⟩
  · rw [if_neg hall]
    have : ¬ ∀ i < 10, m.toList.getD i 0 &&& mask.getD i 0 = 0 := by simpa using hall
    simp only [Bool.false_eq_true, false_iff, not_and]
    intro h; exact absurd h this

theorem class_map (m : ChannelMap) : mapOk classMask m = true ↔ Usable m := by
  rw [mapOk_iff _ _ rfl]
  unfold Usable
  rw [and_comm]
  refine and_congr_right (fun _ => ?_)
  obtain ⟨a, b, c, d, e, f, g, h, i, j, rfl⟩ := vector_ten m
  constructor
  · intro hx
    have h0 := (and_3 a).1 (hx 0 (by decide))
    have h2 := (and_80 c).1 (hx 2 (by decide))
    have h3 := (and_3 d).1 (hx 3 (by decide))
    have h9 := (and_E0 j).1 (hx 9 (by decide))
    intro ch hc
    simp only [forbidden, List.mem_cons, List.not_mem_nil, or_false] at hc
    rcases hc with rfl | rfl | rfl | rfl | rfl | rfl | rfl | rfl
    · exact h0.1
    · exact h0.2
    · exact h2
    · exact h3.1
    · exact h3.2
    · exact h9.1
    · exact h9.2.1
    · exact h9.2.2
  · intro hx k hk
    have hz : ∀ b : BitVec 8, b &&& 0 = 0 := by intro b; simp
    match k, hk with
    | 0, _ => exact (and_3 a).2 ⟨hx 0 (by decide), hx 1 (by decide)⟩
    | 1, _ => exact hz _
    | 2, _ => exact (and_80 c).2 (hx 23 (by decide))
    | 3, _ => exact (and_3 d).2 ⟨hx 24 (by decide), hx 25 (by decide)⟩
    | 4, _ => exact hz _
    | 5, _ => exact hz _
    | 6, _ => exact hz _
    | 7, _ => exact hz _
    | 8, _ => exact hz _
    | 9, _ => exact (and_E0 j).2 ⟨hx 77 (by decide), hx 78 (by decide), hx 79 (by decide)⟩

theorem create_map (m : ChannelMap) : mapOk createMask m = true ↔ AlmostUsable m := by
  rw [mapOk_iff _ _ rfl]
  unfold AlmostUsable
  rw [and_comm]
  refine and_congr_right (fun _ => ?_)
  obtain ⟨a, b, c, d, e, f, g, h, i, j, rfl⟩ := vector_ten m
  constructor
  · intro hx
    have h0 := (and_3 a).1 (hx 0 (by decide))
    have h2 := (and_80 c).1 (hx 2 (by decide))
    have h3 := (and_3 d).1 (hx 3 (by decide))
    have h9 := (and_60 j).1 (hx 9 (by decide))
    intro ch hc h79
    simp only [forbidden, List.mem_cons, List.not_mem_nil, or_false] at hc
    rcases hc with rfl | rfl | rfl | rfl | rfl | rfl | rfl | rfl
    · exact h0.1
    · exact h0.2
    · exact h2
    · exact h3.1
    · exact h3.2
    · exact h9.1
    · exact h9.2
    · exact absurd rfl h79
  · intro hx k hk
    have hz : ∀ b : BitVec 8, b &&& 0 = 0 := by intro b; simp
    match k, hk with
    | 0, _ => exact (and_3 a).2 ⟨hx 0 (by decide) (by decide), hx 1 (by decide) (by decide)⟩
    | 1, _ => exact hz _
    | 2, _ => exact (and_80 c).2 (hx 23 (by decide) (by decide))
    | 3, _ => exact (and_3 d).2 ⟨hx 24 (by decide) (by decide), hx 25 (by decide) (by decide)⟩
    | 4, _ => exact hz _
    | 5, _ => exact hz _
    | 6, _ => exact hz _
    | 7, _ => exact hz _
    | 8, _ => exact hz _
    | 9, _ => exact (and_60 j).2 ⟨hx 77 (by decide) (by decide), hx 78 (by decide) (by decide)⟩

theorem Usable.almost {m : ChannelMap} (h : Usable m) : AlmostUsable m := ⟨h.1, fun ch hc _ => h.2 ch hc⟩

theorem AlmostUsable.usable {m : ChannelMap} (h : AlmostUsable m) (h79 : on m 79 = false) : Usable m := by
  refine ⟨h.1, fun ch hc => ?_⟩
  by_cases hx : ch = 79
  · rw [hx]; exact h79
  · exact h.2 ch hc hx

/-! ## Configurations by identifier -/

theorem find_put_self (l : List Config) (c : Config) : find (put l c) c.id = some c := by
  simp [find, put]

theorem find_erase_self (l : List Config) (id : Nat) : find (erase l id) id = none := by
  simp [find, erase]

theorem find_erase_other (l : List Config) {id k : Nat} (h : k ≠ id) : find (erase l id) k = find l k := by
  unfold find erase
  rw [List.find?_filter]
  congr 1
  funext c
  by_cases hc : c.id = k
  · subst hc; simp [h]
  · simp [hc]

theorem find_put_other (l : List Config) (c : Config) {k : Nat} (h : k ≠ c.id) : find (put l c) k = find l k := by
  have : (c.id == k) = false := by simp; exact fun h' => h h'.symm
  unfold put
  rw [find, List.find?_cons_of_neg (by simp [this])]
  exact find_erase_other l h

theorem mem_erase {l : List Config} {id : Nat} {c : Config} (h : c ∈ erase l id) : c ∈ l :=
  (List.mem_filter.1 h).1

theorem mem_put {l : List Config} {x c : Config} (h : c ∈ put l x) : c = x ∨ c ∈ l := by
  rcases List.mem_cons.1 h with h | h
  · exact .inl h
  · exact .inr (mem_erase h)

theorem find_mem {l : List Config} {id : Nat} {c : Config} (h : find l id = some c) : c ∈ l :=
  List.mem_of_find?_eq_some h

/-- The checks of a creation that succeeds. -/
theorem createCheck_success {e : End} {id context role : Nat} {s : Settings} {r : Nat}
    (h : createCheck e id context role s r = Status.success) :
    (context = 0 ∨ context = 1) ∧ id ≤ 3 ∧ mapOk createMask s.map = true ∧ s.selection = 1 ∧
      (s.shape = 0 ∨ s.shape = 1) ∧ 2 ≤ s.jump ∧ s.jump ≤ 8 ∧
      (∃ rem, e.remote = some rem ∧ rem.roles.testBit (opposite role) = true ∧ rttOk rem s.rtt = true ∧
        phyOk rem s.phy = true ∧ mainOk rem s.main = true ∧ id < rem.numConfig) ∧
      (s.sub = 0xFF ∨ (s.main = 2 ∧ s.sub = 1) ∨ (s.main = 2 ∧ s.sub = 3) ∨ (s.main = 3 ∧ s.sub = 2)) ∧
      (s.main = 1 ∨ s.main = 2 ∨ s.main = 3) := by
  unfold createCheck at h
  split at h
  · exact absurd h (by decide)
  rename_i rem hrem
  have cut : ∀ {c : Prop} [Decidable c] {a b : Status}, a ≠ Status.success →
      (if c then a else b) = Status.success → ¬c ∧ b = Status.success := by
    intro c _ a b ha h
    by_cases hc : c
    · rw [if_pos hc] at h; exact absurd h ha
    · rw [if_neg hc] at h; exact ⟨hc, h⟩
  obtain ⟨_, h⟩ := cut (by decide) h
  obtain ⟨h2, h⟩ := cut (by decide) h
  obtain ⟨h3, h⟩ := cut (by decide) h
  obtain ⟨h4, h⟩ := cut (by decide) h
  obtain ⟨h5, h⟩ := cut (by decide) h
  obtain ⟨_, h⟩ := cut (by decide) h
  obtain ⟨_, h⟩ := cut (by decide) h
  obtain ⟨_, h⟩ := cut (by decide) h
  obtain ⟨h9, h⟩ := cut (by decide) h
  obtain ⟨h10, h⟩ := cut (by decide) h
  obtain ⟨_, h⟩ := cut (by decide) h
  obtain ⟨h12, h⟩ := cut (by decide) h
  obtain ⟨h13, h⟩ := cut (by decide) h
  obtain ⟨_, h⟩ := cut (by decide) h
  obtain ⟨h15, h⟩ := cut (by decide) h
  obtain ⟨h16, h⟩ := cut (by decide) h
  obtain ⟨h17, h⟩ := cut (by decide) h
  obtain ⟨_, h⟩ := cut (by decide) h
  obtain ⟨h19, h⟩ := cut (by decide) h
  obtain ⟨h20, h⟩ := cut (by decide) h
  obtain ⟨h21, h⟩ := cut (by decide) h
  have hs : s.selection = 1 := by omega
  refine ⟨by omega, by omega, by simpa using h12, hs, by omega, by omega, by omega, ?_, by omega, by omega⟩
  refine ⟨rem, hrem, ?_, ?_, ?_, ?_, by omega⟩
  · rcases Bool.eq_false_or_eq_true (rem.roles.testBit (opposite role)) with h | h
    · exact h
    · exact absurd (Or.inr h) h16
  · rcases Bool.eq_false_or_eq_true (rttOk rem s.rtt) with h | h
    · exact h
    · exact absurd (Or.inr h) h19
  · rcases Bool.eq_false_or_eq_true (phyOk rem s.phy) with h | h
    · exact h
    · exact absurd (Or.inr h) h20
  · rcases Bool.eq_false_or_eq_true (mainOk rem s.main) with h | h
    · exact h
    · exact absurd (Or.inr h) h17

theorem createConfig_success {e : End} {id context role : Nat} {s : Settings} {r : Nat} {e' : End}
    {out : List Pdu} {ev : List Ev} (h : createConfig e id context role s r = .ok Status.success e' out ev) :
    createCheck e id context role s r = Status.success ∧
      e' = { e with configs := put e.configs ⟨id, role, s, false, none⟩ } ∧
      (context = 1 ∧ out = [.configReq id 1 role s] ∧ ev = [] ∨
        context ≠ 1 ∧ out = [] ∧ ev = tell e.mask.config (.config Status.success id true role s 0)) := by
  unfold createConfig at h
  split at h
  · rename_i hc
    unfold refuse at h
    injection h with h _
    exact absurd h hc
  · rename_i hc
    have hc : createCheck e id context role s r = Status.success := by
      rcases Nat.decEq (createCheck e id context role s r) Status.success with h' | h'
      · exact absurd h' hc
      · exact h'
    split at h
    · rename_i hctx; cases h; exact ⟨hc, rfl, .inl ⟨hctx, rfl, rfl⟩⟩
    · rename_i hctx; cases h; exact ⟨hc, rfl, .inr ⟨hctx, rfl, rfl⟩⟩

end Verif.Cs
