import Verif.Sco.Lemmas
/-!
# Property C07: link parameters of synchronous connections
-/

namespace Verif.Sco

theorem payload_le (k : EscoType) : k.payload ≤ 540 := by cases k <;> simp [EscoType.payload]
theorem slots_le (k : EscoType) : k.slots ≤ 3 := by cases k <;> simp [EscoType.slots]

/-- The packet types the code takes for allowed. -/
def AsCoded (p : ConnParams) (k : EscoType) : Prop := k.exchange.Allowed p.packetType

theorem bestEsco_some (p : ConnParams) (h1 : p.txBandwidth ≠ 0) (h2 : p.rxBandwidth ≠ 0)
    (l : LinkParams) (h : bestEsco p = some l) : IsBest p (AsCoded p) l := by
  have hs : ∀ c ∈ combinations p.packetType, 0 < c.1.slots := fun c hc =>
    accepted_slots _ _ ((combinations_iff _ _).mp hc).1
  obtain ⟨r1, r2, r3, r4, r5⟩ := fold_best p (combinations p.packetType) ⟨1, 1, none⟩ (by simp)
    (by simp) hs _ rfl
  simp only [bestEsco] at h
  generalize List.foldl (consider p) ⟨1, 1, none⟩ (combinations p.packetType) = r at *
  rcases r4 with rfl | ⟨⟨q1, q2⟩, hc, hv, rfl⟩
  · simp at h
  · simp only [Option.some.injEq] at h
    obtain ⟨hc1, hc2⟩ := (combinations_iff _ _).mp hc
    simp only at hc1 hc2 hv r2 h
    have hlen : q1.length ≠ 0 ∧ q2.length ≠ 0 := by
      simp only [valid, Bool.and_eq_true, decide_eq_true_eq] at hv; exact hv.1.1
    obtain ⟨tx, htx, rfl⟩ := (accepted_iff _ _).mp ⟨hc1, hlen.1⟩
    obtain ⟨rx, hrx, rfl⟩ := (accepted_iff _ _).mp ⟨hc2, hlen.2⟩
    have ha := (valid_iff p h1 h2 tx rx (AsCoded p) htx hrx).mp hv
    have hi : (UInt8.ofNat (interval p (ofType tx) (ofType rx))).toNat =
        interval p (ofType tx) (ofType rx) := by
      have := ha.small
      simp only [UInt8.toNat_ofNat']
      omega
    have hw : (UInt8.ofNat (retransmission p (ofType tx) (ofType rx))).toNat =
        retransmissionSlots p.effort (tx.slots + rx.slots) := by
      rw [retransmission_eq]
      have := retransmissionSlots_le p.effort (tx.slots + rx.slots)
      have := slots_le tx
      have := slots_le rx
      simp only [UInt8.toNat_ofNat']
      omega
    subst h
    refine ⟨rfl, tx, rx, ?_⟩
    simp only [escoParams]
    rw [hi]
    obtain ⟨t1, t2, t3⟩ := packetLength_spec _ _ _ ha.txCarries (payload_le tx)
    obtain ⟨u1, u2, u3⟩ := packetLength_spec _ _ _ ha.rxCarries (payload_le rx)
    refine ⟨ha, hw, t1, t2, t3, u1, u2, u3, ?_⟩
    intro tx' rx' i' ha'
    obtain ⟨v1, v2⟩ := admissible_valid p h1 h2 _ tx' rx' i' ha'
    have n1 : (ofType tx').length ≠ 0 := by cases tx' <;> simp [ofType, EscoType.payload]
    have n2 : (ofType rx').length ≠ 0 := by cases rx' <;> simp [ofType, EscoType.payload]
    have m1 := ((accepted_iff _ _).mpr ⟨tx', ha'.txAllowed, rfl⟩).1
    have m2 := ((accepted_iff _ _).mpr ⟨rx', ha'.rxAllowed, rfl⟩).1
    have := r2 (ofType tx', ofType rx') ((combinations_iff _ _).mpr ⟨m1, m2⟩) v1
    simp only [window_eq] at this
    exact Nat.le_trans (Nat.mul_le_mul_left _ v2) this

theorem bestEsco_none (p : ConnParams) (h1 : p.txBandwidth ≠ 0) (h2 : p.rxBandwidth ≠ 0)
    (h : bestEsco p = none) (tx rx : EscoType) (i : Nat) : ¬ Admissible p (AsCoded p) tx rx i := by
  have hs : ∀ c ∈ combinations p.packetType, 0 < c.1.slots := fun c hc =>
    accepted_slots _ _ ((combinations_iff _ _).mp hc).1
  obtain ⟨-, -, -, -, r5⟩ := fold_best p (combinations p.packetType) ⟨1, 1, none⟩ (by simp)
    (by simp) hs _ rfl
  intro ha
  obtain ⟨v1, -⟩ := admissible_valid p h1 h2 _ tx rx i ha
  have m1 := ((accepted_iff _ _).mpr ⟨tx, ha.txAllowed, rfl⟩).1
  have m2 := ((accepted_iff _ _).mpr ⟨rx, ha.rxAllowed, rfl⟩).1
  have := (r5 h).2 (ofType tx, ofType rx) ((combinations_iff _ _).mpr ⟨m1, m2⟩)
  simp [v1] at this

theorem scoFallback_not_extended (p : ConnParams) (l : LinkParams) (h : scoFallback p = some l) :
    l.extended = false := by
  unfold scoFallback at h
  repeat' split at h
  all_goals simp at h
  all_goals subst h; rfl

/-- **C07**, for every request, with the meaning the code gives to the packet type bits (3-EV3 and
2-EV5 exchanged): eSCO parameters that are returned are admissible, carry the bandwidth and are not
beaten by any admissible choice of packet types and interval. Missing for the full property: the
right meaning of these two bits, see `C07_types_allowed_violated`. -/
theorem C07_esco_best_as_coded_partial (p : ConnParams) (l : LinkParams)
    (h : getLinkParams p = some l) (he : l.extended = true) :
    IsBest p (fun k => k.exchange.Allowed p.packetType) l := by
  unfold getLinkParams at h
  split at h
  · simp at h
  · rename_i hbw
    simp only [not_or] at hbw
    split at h
    · rename_i l' hb
      simp at h; subst h
      exact bestEsco_some p hbw.1 hbw.2 _ hb
    · have := scoFallback_not_extended _ _ h
      simp [he] at this

/-- **C07**, when the host treats 3-EV3 and 2-EV5 alike (allows both or neither): the full claim. -/
theorem C07_esco_best_partial (p : ConnParams) (l : LinkParams)
    (hsame : EscoType.Allowed p.packetType .ev3_3 ↔ EscoType.Allowed p.packetType .ev5_2)
    (h : getLinkParams p = some l) (he : l.extended = true) :
    IsBest p (EscoType.Allowed p.packetType) l := by
  have := C07_esco_best_as_coded_partial p l h he
  have e : (fun k : EscoType => k.exchange.Allowed p.packetType) = EscoType.Allowed p.packetType := by
    funext k
    apply propext
    cases k <;> simp only [EscoType.exchange]
    · exact hsame.symm
    · exact hsame
  rwa [e] at this

/-- **C07.** When no eSCO parameters are returned, there was no admissible choice (for the meaning the
code gives to the bits; for the real meaning if the host treats 3-EV3 and 2-EV5 alike). -/
theorem C07_esco_complete_partial (p : ConnParams) (h1 : p.txBandwidth ≠ 0) (h2 : p.rxBandwidth ≠ 0)
    (h : ∀ l, getLinkParams p = some l → l.extended = false) (tx rx : EscoType) (i : Nat) :
    ¬ Admissible p (fun k => k.exchange.Allowed p.packetType) tx rx i ∧
    ((EscoType.Allowed p.packetType .ev3_3 ↔ EscoType.Allowed p.packetType .ev5_2) →
      ¬ Admissible p (EscoType.Allowed p.packetType) tx rx i) := by
  have hn : bestEsco p = none := by
    cases hb : bestEsco p with
    | none => rfl
    | some l =>
      have h3 := (bestEsco_some p h1 h2 l hb).1
      have := h l (by simp [getLinkParams, h1, h2, hb])
      simp [h3] at this
  have hna := bestEsco_none p h1 h2 hn tx rx i
  refine ⟨hna, fun hsame => ?_⟩
  have e : AsCoded p = EscoType.Allowed p.packetType := by
    funext k
    apply propext
    cases k <;> simp only [AsCoded, EscoType.exchange]
    · exact hsame.symm
    · exact hsame
  rwa [e] at hna

/-- A request that allows only 3-EV3 packets (90 octets, one slot). -/
def only3Ev3 : ConnParams :=
  { txBandwidth := 8000, rxBandwidth := 8000, maxLatency := 10, voiceSetting := 0x60, effort := 0, packetType := 0x340 }

/-- **C07 is violated**: to a host that allows only 3-EV3 packets the controller announces packets of
360 octets, which no allowed packet type can hold. -/
theorem C07_types_allowed_violated :
    ∃ l, getLinkParams only3Ev3 = some l ∧ l.extended = true ∧ l.txLength = 360 ∧
      (∀ k, EscoType.Allowed only3Ev3.packetType k ↔ k = .ev3_3) ∧
      (∀ k, EscoType.Allowed only3Ev3.packetType k → k.payload < l.txLength.toNat) ∧
      ¬ IsBest only3Ev3 (EscoType.Allowed only3Ev3.packetType) l := by
  have ha : ∀ k, EscoType.Allowed only3Ev3.packetType k ↔ k = .ev3_3 := by
    intro k; cases k <;> simp only [EscoType.Allowed, only3Ev3] <;> decide
  refine ⟨⟨72, 0, 360, 360, 2, true⟩, by decide +kernel, rfl, rfl, ha, ?_, ?_⟩
  · intro k hk
    rw [(ha k).mp hk]
    decide
  · rintro ⟨-, tx, rx, had, -, -, -, hlen, -⟩
    have := (ha tx).mp had.txAllowed
    subst this
    exact absurd hlen (by decide)

/-- **C07.** When the answer is not extended, it is the longest HV packet the host allows, at its
fixed interval, without retransmission, and the host did not ask for retransmissions. -/
theorem C07_sco_fallback_types (p : ConnParams) (l : LinkParams) (h : getLinkParams p = some l)
    (he : l.extended = false) :
    p.effort ≠ 1 ∧ p.effort ≠ 2 ∧ l.window = 0 ∧ l.rxLength = l.txLength ∧
    ((p.packetType &&& 4 ≠ 0 ∧ l.interval = 6 ∧ l.txLength = 30) ∨
     (p.packetType &&& 4 = 0 ∧ p.packetType &&& 2 ≠ 0 ∧ l.interval = 4 ∧ l.txLength = 20) ∨
     (p.packetType &&& 4 = 0 ∧ p.packetType &&& 2 = 0 ∧ p.packetType &&& 1 ≠ 0 ∧ l.interval = 2 ∧
       l.txLength = 10)) := by
  unfold getLinkParams at h
  split at h
  · simp at h
  · rename_i hbw
    simp only [not_or] at hbw
    split at h
    · rename_i l' hb
      simp at h; subst h
      have := (bestEsco_some p hbw.1 hbw.2 _ hb).1
      simp [he] at this
    · unfold scoFallback at h
      split at h
      · simp at h
      · rename_i hef
        simp only [effortPower, effortQuality, not_or] at hef
        refine ⟨hef.1, hef.2, ?_⟩
        split at h
        · rename_i h4; simp at h; subst h; exact ⟨rfl, rfl, Or.inl ⟨h4, rfl, rfl⟩⟩
        · rename_i h4
          split at h
          · rename_i h2
            simp at h; subst h
            exact ⟨rfl, rfl, Or.inr (Or.inl ⟨by simpa [hv3] using h4, h2, rfl, rfl⟩)⟩
          · rename_i h2
            split at h
            · rename_i h1
              simp at h; subst h
              exact ⟨rfl, rfl, Or.inr (Or.inr ⟨by simpa [hv3] using h4, by simpa [hv2] using h2, h1, rfl, rfl⟩)⟩
            · simp at h

/-- **C07 is violated** by the SCO fallback: it does not look at the bandwidth, although the comment
in the code says so. A request for 16000 octets per second gets a link that carries 8000. -/
theorem C07_sco_bandwidth_violated :
    let p : ConnParams := { txBandwidth := 16000, rxBandwidth := 16000, maxLatency := 10, voiceSetting := 0x60, effort := 0, packetType := 0x3c4 }
    ∃ l, getLinkParams p = some l ∧ l.extended = false ∧
      1600 * l.txLength.toNat < p.txBandwidth.toNat * l.interval.toNat :=
  ⟨⟨6, 0, 30, 30, 2, false⟩, by decide +kernel, rfl, by decide⟩

/-- **C07.** The air mode is the air coding the host asked for (CVSD 2, µ-law 0, A-law 1,
transparent 3), whatever the link. -/
theorem C07_air_mode (p : ConnParams) (l : LinkParams) (h : getLinkParams p = some l) :
    (p.voiceSetting &&& 3 = 0 → l.airMode = 2) ∧ (p.voiceSetting &&& 3 = 1 → l.airMode = 0) ∧
    (p.voiceSetting &&& 3 = 2 → l.airMode = 1) ∧ (p.voiceSetting &&& 3 = 3 → l.airMode = 3) := by
  suffices hl : l.airMode = airMode p.voiceSetting by
    refine ⟨?_, ?_, ?_, ?_⟩ <;> intro hv <;> rw [hl, airMode, hv] <;> rfl
  have key : ∀ (cs : List (Packet × Packet)) (b : Best),
      (∀ l, b.params = some l → l.airMode = airMode p.voiceSetting) →
      ∀ l, (cs.foldl (consider p) b).params = some l → l.airMode = airMode p.voiceSetting := by
    intro cs
    induction cs with
    | nil => intro b hb l hl; exact hb l hl
    | cons c cs ih =>
      intro b hb l hl
      apply ih (consider p b c) ?_ l hl
      intro l' hl'
      simp only [consider] at hl'
      split at hl'
      · split at hl'
        · simp at hl'; subst hl'; rfl
        · exact hb l' hl'
      · exact hb l' hl'
  unfold getLinkParams at h
  split at h
  · simp at h
  · split at h
    · rename_i l' hb
      simp at h; subst h
      exact key _ _ (by simp) _ hb
    · unfold scoFallback at h
      repeat' split at h
      all_goals simp at h
      all_goals subst h; rfl

/-- A retransmission effort that serves what one side asked for: the same, or anything if it does
not care, or retransmission for power when it asked for retransmissions of the other kind. -/
def EffortServes (got asked : UInt8) : Prop := got = asked ∨ asked = 0xFF ∨ (asked ≠ 0 ∧ got = 1)

theorem bit_clear (x m : UInt16) (k : Nat) (hk : k < 16) (hm : m.toBitVec = BitVec.twoPow 16 k) :
    x &&& m = 0 ↔ x.toBitVec.getLsbD k = false := by
  rw [← UInt16.toBitVec_inj, UInt16.toBitVec_and, hm, BitVec.and_twoPow]
  cases hb : x.toBitVec.getLsbD k
  · simp
  · simp only [if_true, reduceCtorEq, iff_false]
    intro h
    have := congrArg (fun v => v.getLsbD k) h
    simp [hk] at this

/-- A packet type is common exactly when both sides allow it. -/
theorem commonTypes_allowed (a b : UInt16) (k : EscoType) :
    EscoType.Allowed (commonTypes a b) k ↔ EscoType.Allowed a k ∧ EscoType.Allowed b k := by
  cases k <;> simp only [EscoType.Allowed, ne_eq]
  · rw [bit_clear _ _ 3 (by omega) (by decide), bit_clear _ _ 3 (by omega) (by decide), bit_clear _ _ 3 (by omega) (by decide)]
    simp [commonTypes]; grind
  · rw [bit_clear _ _ 4 (by omega) (by decide), bit_clear _ _ 4 (by omega) (by decide), bit_clear _ _ 4 (by omega) (by decide)]
    simp [commonTypes]; grind
  · rw [bit_clear _ _ 5 (by omega) (by decide), bit_clear _ _ 5 (by omega) (by decide), bit_clear _ _ 5 (by omega) (by decide)]
    simp [commonTypes]; grind
  · rw [bit_clear _ _ 6 (by omega) (by decide), bit_clear _ _ 6 (by omega) (by decide), bit_clear _ _ 6 (by omega) (by decide)]
    simp [commonTypes]; grind
  · rw [bit_clear _ _ 7 (by omega) (by decide), bit_clear _ _ 7 (by omega) (by decide), bit_clear _ _ 7 (by omega) (by decide)]
    simp [commonTypes]; grind
  · rw [bit_clear _ _ 8 (by omega) (by decide), bit_clear _ _ 8 (by omega) (by decide), bit_clear _ _ 8 (by omega) (by decide)]
    simp [commonTypes]; grind
  · rw [bit_clear _ _ 9 (by omega) (by decide), bit_clear _ _ 9 (by omega) (by decide), bit_clear _ _ 9 (by omega) (by decide)]
    simp [commonTypes]; grind

theorem latency_min (a b : UInt16) : (latency a b).toNat = min a.toNat b.toNat := by
  have ha := a.toNat_lt
  have hb := b.toNat_lt
  unfold latency
  split
  · rename_i h; subst h; simp; omega
  · split
    · rename_i h; subst h; simp; omega
    · rw [show min b a = if b ≤ a then b else a from rfl]
      split <;> rename_i hle <;> rw [UInt16.le_iff_toNat_le] at hle <;> omega

/-- **C07.** A successful negotiation yields link parameters for a request that both sides' constraints
admit: only packet types both allow, the smaller latency, a retransmission effort that serves both (none
on a SCO link), the initiator's bandwidths, and the same voice setting up to the air coding. The
bandwidth clauses are as in the code, where 0xFFFF stands for "don't care"; missing are the
right don't-care value and the check of the receive bandwidth on SCO links, see
`C07_dont_care_bandwidth_violated` and `C07_receive_bandwidth_violated`. -/
theorem C07_negotiation_sound_partial (st : State) (mine peer : ConnParams) (l : LinkParams)
    (h : negotiate st mine peer = some l) :
    ∃ q, getLinkParams q = some l ∧
      q.txBandwidth = mine.txBandwidth ∧ q.rxBandwidth = mine.rxBandwidth ∧
      q.voiceSetting = mine.voiceSetting ∧
      (∀ k, EscoType.Allowed q.packetType k ↔
        EscoType.Allowed mine.packetType k ∧ EscoType.Allowed peer.packetType k) ∧
      q.maxLatency.toNat = min mine.maxLatency.toNat peer.maxLatency.toNat ∧
      (st = .sentSco → q.effort = 0) ∧
      (st ≠ .sentSco → EffortServes q.effort mine.effort ∧ EffortServes q.effort peer.effort) ∧
      (peer.txBandwidth = 0xffff ∨ peer.txBandwidth = mine.rxBandwidth) ∧
      (st = .sentEsco → peer.rxBandwidth = 0xffff ∨ peer.rxBandwidth = mine.txBandwidth) ∧
      peer.voiceSetting &&& 0xfffc = mine.voiceSetting &&& 0xfffc := by
  unfold negotiate at h
  split at h
  · simp at h
  rename_i c1
  split at h
  · simp at h
  rename_i c2
  split at h
  · simp at h
  rename_i c3
  split at h
  · simp at h
  split at h
  · simp at h
  rename_i e he
  refine ⟨_, h, rfl, rfl, rfl, ?_, ?_, ?_, ?_, ?_, ?_, ?_⟩
  · intro k; exact commonTypes_allowed _ _ k
  · exact latency_min _ _
  · intro hst; subst hst; simp [commonEffort, effortNone] at he; exact he.symm
  · intro hst
    simp only [commonEffort, hst, if_false, effortDontCare, effortNone, effortPower] at he
    simp only [EffortServes]
    grind
  · grind
  · intro hst; grind
  · have e : (~~~3 : UInt16) = 0xfffc := by decide
    rw [← e]; simpa using c3

/-- **C07.** Conversely the negotiation fails only for one of the listed reasons. -/
theorem C07_negotiation_complete (st : State) (mine peer : ConnParams) (h : negotiate st mine peer = none)
    (htx : peer.txBandwidth = mine.rxBandwidth) (hrx : peer.rxBandwidth = mine.txBandwidth)
    (hv : peer.voiceSetting &&& 0xfffc = mine.voiceSetting &&& 0xfffc)
    (ht : commonTypes mine.packetType peer.packetType ≠ 0x3c0) :
    (st ≠ .sentSco ∧ mine.effort ≠ peer.effort ∧ mine.effort ≠ 0xFF ∧ peer.effort ≠ 0xFF ∧
      (mine.effort = 0 ∨ peer.effort = 0)) ∨
    ∃ e, getLinkParams { mine with maxLatency := latency mine.maxLatency peer.maxLatency, effort := e, packetType := commonTypes mine.packetType peer.packetType } = none ∧
      ((st = .sentSco ∧ e = 0) ∨ (EffortServes e mine.effort ∧ EffortServes e peer.effort)) := by
  have hv' : peer.voiceSetting &&& ~~~3 = mine.voiceSetting &&& ~~~3 := by
    have e : (~~~3 : UInt16) = 0xfffc := by decide
    rw [e]; exact hv
  simp only [negotiate, htx, hrx, hv', ht, ne_eq, not_true_eq_false, and_false, if_false] at h
  cases he : commonEffort st mine.effort peer.effort with
  | none =>
    left
    simp only [commonEffort, effortDontCare, effortNone] at he
    grind
  | some e =>
    right
    simp only [he] at h
    refine ⟨e, h, ?_⟩
    simp only [commonEffort, effortDontCare, effortNone, effortPower] at he
    simp only [EffortServes]
    grind

/-- The parameters of a usual mSBC/CVSD request. -/
def usual : ConnParams :=
  { txBandwidth := 8000, rxBandwidth := 8000, maxLatency := 10, voiceSetting := 0x60, effort := 1, packetType := 0x388 }

/-- The hypotheses of the positive theorems are met: 2-EV3 packets of 60 octets every 12 slots. -/
example : getLinkParams usual = some ⟨12, 2, 60, 60, 2, true⟩ := by decide +kernel

example : EscoType.Allowed usual.packetType .ev3_3 ↔ EscoType.Allowed usual.packetType .ev5_2 := by
  simp only [EscoType.Allowed, usual]; decide

example : negotiate .sentEsco usual { usual with packetType := 0x3c8, effort := 2 } =
    some ⟨6, 2, 30, 30, 2, true⟩ := by decide +kernel

/-- A request no choice satisfies: the latency is too short. -/
example : getLinkParams { usual with maxLatency := 0 } = none := by decide +kernel

/-- **C07 is violated**: the specification's "don't care" bandwidth 0xFFFFFFFF makes the negotiation
fail, while 65535 octets per second, an ordinary value, is taken for "don't care" and accepted although
the other side sends 8000. -/
theorem C07_dont_care_bandwidth_violated :
    negotiate .sentEsco usual { usual with txBandwidth := 0xFFFFFFFF, rxBandwidth := 0xFFFFFFFF } = none ∧
    (negotiate .sentEsco usual { usual with txBandwidth := 65535, rxBandwidth := 65535 }).isSome = true := by
  decide +kernel

/-- **C07 is violated**: on a SCO request the receive bandwidth of the peer is not compared with the
transmit bandwidth. -/
theorem C07_receive_bandwidth_violated :
    (negotiate .sentSco { usual with effort := 0, packetType := 0x3c4 }
      { usual with effort := 0, packetType := 0x3c4, rxBandwidth := 4000 }).isSome = true := by
  decide +kernel

/-- **C07 (kind of link).** A request is for an extended link just if its packet types differ from the four "may not be used"
bits (2-EV3, 3-EV3, 2-EV5, 3-EV5: bits 6 to 9) outside the three HV bits: an EV packet is asked for (bits 3 to 5), a reserved
bit is set, or an enhanced packet is not excluded. -/
theorem C07_extended (p : ConnParams) :
    isExtended p = true ↔ ∃ i, 3 ≤ i ∧ i < 16 ∧ p.packetType.toNat.testBit i ≠ decide (6 ≤ i ∧ i ≤ 9) := by
  have e : (p.packetType ^^^ (no2Ev3 ||| no3Ev3 ||| no2Ev5 ||| no3Ev5)) &&& ~~~(hv1 ||| hv2 ||| hv3) = (p.packetType ^^^ 0x3c0) &&& 0xfff8 := by
    rfl
  have h3c0 : ∀ i, i < 16 → (0x3c0 : Nat).testBit i = decide (6 ≤ i ∧ i ≤ 9) := by decide
  have hfff8 : ∀ i, i < 16 → (0xfff8 : Nat).testBit i = decide (3 ≤ i) := by decide
  have hn : ((p.packetType ^^^ 0x3c0) &&& 0xfff8).toNat = (p.packetType.toNat ^^^ 0x3c0) &&& 0xfff8 := by
    rw [UInt16.toNat_and, UInt16.toNat_xor]; rfl
  have hlt : (p.packetType.toNat ^^^ 0x3c0) &&& 0xfff8 < 2 ^ 16 := Nat.and_lt_two_pow _ (by omega)
  unfold isExtended
  rw [e]
  simp only [ne_eq, decide_not, Bool.not_eq_eq_eq_not, Bool.not_true, decide_eq_false_iff_not]
  constructor
  · intro h
    have h0 : (p.packetType.toNat ^^^ 0x3c0) &&& 0xfff8 ≠ 0 := by
      intro h0
      apply h
      apply UInt16.toNat_inj.mp
      rw [hn, h0]
      rfl
    obtain ⟨i, hi⟩ := Nat.exists_testBit_of_ne_zero h0
    have hi16 : i < 16 := by
      apply Decidable.byContradiction
      intro hc
      rw [Nat.testBit_lt_two_pow (Nat.lt_of_lt_of_le hlt (Nat.pow_le_pow_right (by omega) (by omega)))] at hi
      cases hi
    rw [Nat.testBit_and, Nat.testBit_xor, h3c0 i hi16, hfff8 i hi16] at hi
    simp only [Bool.and_eq_true, decide_eq_true_eq] at hi
    refine ⟨i, hi.2, hi16, fun hc => ?_⟩
    rw [hc] at hi
    simp at hi
  · rintro ⟨i, h3, hi16, hne⟩ h
    have h0 : (p.packetType.toNat ^^^ 0x3c0) &&& 0xfff8 = 0 := by
      rw [← hn, h]; rfl
    have hb : ((p.packetType.toNat ^^^ 0x3c0) &&& 0xfff8).testBit i = false := by rw [h0, Nat.zero_testBit]
    rw [Nat.testBit_and, Nat.testBit_xor, h3c0 i hi16, hfff8 i hi16] at hb
    simp only [decide_eq_true h3, Bool.and_true] at hb
    apply hne
    cases h1 : p.packetType.toNat.testBit i <;> cases h2 : decide (6 ≤ i ∧ i ≤ 9) <;> simp_all

example : isExtended ⟨8000, 8000, 0xffff, 0x60, 0xff, 0x3c7⟩ = false ∧ isExtended ⟨8000, 8000, 0xffff, 0x60, 0xff, 0x3cf⟩ = true ∧
    isExtended ⟨8000, 8000, 0xffff, 0x60, 0xff, 0x387⟩ = true := by decide

end Verif.Sco
