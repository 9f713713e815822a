import Verif.Le.ListLemmas
import Verif.Le.SpecParams
/-!
# Connection and scan parameters: helper lemmas
-/

namespace Verif.Le

theorem popcount_eq (n : Nat) : popcount n = bitCount n := by
  have h : ∀ (l : List Nat) (acc : Nat),
      l.foldl (fun acc i => acc + (if n.testBit i then 1 else 0)) acc =
        acc + (l.filter (fun i => n.testBit i)).length := by
    intro l
    induction l with
    | nil => intro acc; rfl
    | cons i l ih =>
      intro acc
      simp only [List.foldl_cons, List.filter_cons]
      rw [ih]
      split <;> simp
      omega
  unfold popcount bitCount
  rw [h]; omega

theorem firstError_iff {l : List (Bool × Status)} (h : ∀ x ∈ l, x.2 ≠ .success) :
    firstError l = .success ↔ ∀ x ∈ l, x.1 = false := by
  induction l with
  | nil => simp [firstError]
  | cons c l ih =>
    obtain ⟨c, e⟩ := c
    rw [firstError_cons (h (c, e) List.mem_cons_self), ih (fun x hx => h x (List.mem_cons_of_mem _ hx))]
    simp

theorem connChecks_errors (p : ConnParams) : ∀ x ∈ connChecks p, x.2 ≠ .success := by
  intro x hx
  simp only [connChecks, List.mem_cons, List.not_mem_nil, or_false] at hx
  rcases hx with rfl | rfl | rfl | rfl | rfl | rfl | rfl <;> simp

theorem connChecks_iff (p : ConnParams) : (∀ x ∈ connChecks p, x.1 = false) ↔
    LegalRanges p ∧ TimeoutRuleWeak p.intervalMax p.maxLatency p.supervisionTimeout := by
  simp only [connChecks, List.forall_mem_cons, List.not_mem_nil, false_imp_iff, implies_true,
    and_true, decide_eq_false_iff_not, TimeoutRuleWeak]
  constructor
  · rintro ⟨h1, h2, h3, h4, h5, h6, h7⟩
    refine ⟨⟨⟨by omega, by omega, by omega⟩, ⟨by omega, by omega, by omega⟩, by omega, by omega, by omega⟩, ?_⟩
    generalize hX : (1 + p.maxLatency) * (p.intervalMax) = X
    have e1 : (1 + p.maxLatency) * (2 * p.intervalMax) * 2 * 625 = X * 2500 := by
      rw [← hX, Nat.mul_left_comm]; omega
    have e2 : (1 + p.maxLatency) * (p.intervalMax * 1250) * 2 = X * 2500 := by
      rw [← hX, ← Nat.mul_assoc]; omega
    rw [e1] at h7; rw [e2]; omega
  · rintro ⟨⟨⟨a1, a2, a3⟩, ⟨b1, b2, b3⟩, c, d1, d2⟩, e⟩
    refine ⟨by omega, by omega, by omega, by omega, by omega, by omega, ?_⟩
    revert e
    generalize hX : (1 + p.maxLatency) * (p.intervalMax) = X
    have e1 : (1 + p.maxLatency) * (2 * p.intervalMax) * 2 * 625 = X * 2500 := by
      rw [← hX, Nat.mul_left_comm]; omega
    have e2 : (1 + p.maxLatency) * (p.intervalMax * 1250) * 2 = X * 2500 := by
      rw [← hX, ← Nat.mul_assoc]; omega
    rw [e1, e2]; omega

/-- The resolving list has an entry for the peer. -/
theorem generateRpa_isSome (rnd : Irk → Address) (a : AddressWithType) (l : List RlEntry) :
    (generateRpa rnd a .loc l).2.isNone = true ↔
      ∀ e ∈ l, ¬ (a.address = e.peerAddress ∧ a.toPeerType = e.peerType) := by
  induction l with
  | nil => simp [generateRpa]
  | cons e l ih =>
    simp only [generateRpa]
    split
    · rename_i h; simp [h]
    · rename_i h
      simp only [ih, List.forall_mem_cons, h, not_false_eq_true, true_and]

theorem initiatorAddressCheck_fst (rnd : Irk → Address) (s : State) (policy peer own) :
    ∃ r, (initiatorAddressCheck rnd s policy peer own).1 = { s with resolvingList := r } := by
  unfold initiatorAddressCheck
  repeat' split
  all_goals exact ⟨_, rfl⟩

theorem initiatorAddressCheck_snd (rnd : Irk → Address) (s : State) (policy peer own) :
    (initiatorAddressCheck rnd s policy peer own).2 = false ↔ OwnAddressAvailable s policy peer own := by
  unfold initiatorAddressCheck
  split
  · rename_i h; obtain ⟨rfl, h⟩ := h
    simp [OwnAddressAvailable, h]
  · rename_i h
    split
    · rename_i h'; obtain ⟨rfl, rfl⟩ := h'
      simp only [OwnAddressAvailable, true_imp_iff]
      constructor
      · intro h'
        by_cases hz : s.randomAddress = 0
        · refine Or.inr ?_
          by_cases hn : (generateRpa rnd peer .loc s.resolvingList).2.isNone = true
          · simp [hn, hz] at h'
          · rw [generateRpa_isSome] at hn
            simpa using hn
        · exact Or.inl hz
      · rintro (h' | h')
        · simp only [Bool.and_eq_false_iff]; exact Or.inr (beq_eq_false_iff_ne.2 h')
        · have : (generateRpa rnd peer .loc s.resolvingList).2.isNone ≠ true := by
            rw [Ne, generateRpa_isSome]; simpa using h'
          simp [this]
    · rename_i h'
      cases own <;> simp_all [OwnAddressAvailable]

theorem onlySupported_iff (cfg : Config) (mask : Nat) (h : mask < 256) :
    (mask &&& (0xff - cfg.supportedPhys) != 0) = false ↔ OnlySupported cfg mask := by
  have key : ∀ (b2 bc : Bool) (n : Fin 256),
      ((n.val &&& (0xff - (1 ||| (if b2 then 2 else 0) ||| (if bc then 4 else 0))) != 0) = false ↔
        ∀ i : Fin 8, n.val.testBit i.val = true →
          (i.val = 0 ∨ (i.val = 1 ∧ b2 = true) ∨ (i.val = 2 ∧ bc = true))) := by
    intro b2 bc
    cases b2 <;> cases bc <;> decide +kernel
  refine (key cfg.supports2mPhy cfg.supportsCodedPhy ⟨mask, h⟩).trans ?_
  constructor
  · intro hk i hi ht
    rcases hk ⟨i, hi⟩ ht with h0 | ⟨h1, hb⟩ | ⟨h2, hb⟩
    · exact ⟨.le1m, h0.symm, rfl⟩
    · exact ⟨.le2m, h1.symm, hb⟩
    · exact ⟨.leCoded, h2.symm, hb⟩
  · intro hk i ht
    obtain ⟨phy, hp, hs⟩ := hk i.val i.isLt ht
    cases phy
    · exact Or.inl hp.symm
    · exact Or.inr (Or.inl ⟨hp.symm, hs⟩)
    · exact Or.inr (Or.inr ⟨hp.symm, hs⟩)

theorem getD_eq_of_getElem? {α : Type} {l : List α} {i : Nat} {d a : α} (h : l[i]? = some a) :
    l.getD i d = a := by
  simp [List.getD, h]

theorem createConnection_success {cfg : Config} {s s' : State} {rnd policy peer own p out}
    (h : step cfg s (.cmd (.createConnection rnd policy peer own p)) = .ok s' (some .success) out) :
    s.extendedInUse = false ∧ s.initiator.enable = false ∧
    (LegalRanges p ∧ TimeoutRuleWeak p.intervalMax p.maxLatency p.supervisionTimeout) ∧
    OwnAddressAvailable s policy peer own ∧
    s'.initiator.enable = true ∧ s'.initiator.le1m = ⟨true, p⟩ ∧
    s'.initiator.le2m.enabled = false ∧ s'.initiator.leCoded.enabled = false := by
  obtain ⟨e, he, heq, -⟩ := step_cmd h
  cases heq
  obtain ⟨hs', hst⟩ := runCmd_ret_of he
  simp only [createConnection, withLegacy, checkedThen] at hs' hst
  split at hst
  · cases hst
  · rename_i hx
    rw [if_neg hx] at hs'
    split at hst
    · rename_i hc
      rw [if_pos hc] at hs'
      rw [firstError_cons (by simp), firstError_iff (connChecks_errors p), connChecks_iff] at hc
      split at hst
      · cases hst
      · rename_i ha
        rw [if_neg ha] at hs'
        have ha' := Bool.eq_false_iff.2 ha
        rw [initiatorAddressCheck_snd] at ha'
        obtain ⟨r, hr⟩ := initiatorAddressCheck_fst rnd { s with legacyInUse := true } policy peer own
        rw [hr] at hs'
        subst hs'
        refine ⟨Bool.eq_false_iff.2 hx, hc.1, hc.2, ?_, rfl, rfl, rfl, rfl⟩
        cases own <;> exact ha'
    · rename_i hc
      exact absurd hst.symm hc

theorem createConnection_accepts {cfg : Config} {s : State} {rnd policy peer own p}
    (h1 : s.extendedInUse = false) (h2 : s.initiator.enable = false)
    (h3 : LegalRanges p ∧ TimeoutRuleWeak p.intervalMax p.maxLatency p.supervisionTimeout)
    (h4 : OwnAddressAvailable s policy peer own) :
    ∃ s', step cfg s (.cmd (.createConnection rnd policy peer own p)) = .ok s' (some .success) [] := by
  have hc : firstError ((s.initiator.enable, .commandDisallowed) :: connChecks p) = .success := by
    rw [firstError_cons (by simp), firstError_iff (connChecks_errors p), connChecks_iff]
    exact ⟨h2, h3⟩
  have ha : (initiatorAddressCheck rnd { s with legacyInUse := true } policy peer own).2 = false := by
    rw [initiatorAddressCheck_snd]
    cases own <;> exact h4
  simp only [step, runCmd, createConnection, withLegacy, checkedThen]
  rw [if_neg (by rw [h1]; exact Bool.false_ne_true), if_pos hc, if_neg (by rw [ha]; exact Bool.false_ne_true)]
  exact ⟨_, rfl⟩

/-- The checks of LE Extended Create Connection. -/
def extConnChecks (s : State) (phys : Nat) (params : List ConnParams) : List (Bool × Status) :=
  [(s.initiator.enable, .commandDisallowed),
   (phys &&& 0xf8 != 0, .unsupportedFeatureOrParameterValue),
   (popcount phys != params.length, .invalidHciCommandParameters),
   (phys == 0, .invalidHciCommandParameters)] ++ params.flatMap connChecks

theorem mask_lt_8 {mask : Nat} (h : mask < 256) : (mask &&& 0xf8 != 0) = false ↔ mask < 8 := by
  have key : ∀ n : Fin 256, (n.val &&& 0xf8 != 0) = false ↔ n.val < 8 := by decide +kernel
  exact key ⟨mask, h⟩

theorem extConnChecks_iff {s : State} {phys : Nat} {params : List ConnParams} (hp : phys < 256) :
    firstError (extConnChecks s phys params) = .success ↔
      s.initiator.enable = false ∧ phys < 8 ∧ phys ≠ 0 ∧ params.length = bitCount phys ∧
      ∀ p ∈ params, LegalRanges p ∧ TimeoutRuleWeak p.intervalMax p.maxLatency p.supervisionTimeout := by
  have herr : ∀ x ∈ params.flatMap connChecks, x.2 ≠ .success := by
    intro x hx
    obtain ⟨p, -, hx⟩ := List.mem_flatMap.1 hx
    exact connChecks_errors p x hx
  unfold extConnChecks
  simp only [List.cons_append, List.nil_append]
  rw [firstError_cons (by simp), firstError_cons (by simp), firstError_cons (by simp),
    firstError_cons (by simp), firstError_iff herr, mask_lt_8 hp, popcount_eq]
  simp only [bne_eq_false_iff_eq, beq_eq_false_iff_ne, ne_eq]
  constructor
  · rintro ⟨h1, h2, h3, h4, h5⟩
    refine ⟨h1, h2, h4, h3.symm, fun p hpm => (connChecks_iff p).1 fun x hx => ?_⟩
    exact h5 x (List.mem_flatMap.2 ⟨p, hpm, hx⟩)
  · rintro ⟨h1, h2, h4, h3, h5⟩
    refine ⟨h1, h2, h3.symm, h4, fun x hx => ?_⟩
    obtain ⟨p, hpm, hx⟩ := List.mem_flatMap.1 hx
    exact (connChecks_iff p).2 (h5 p hpm) x hx

theorem extendedCreateConnection_success {cfg : Config} {s s' : State} {rnd policy own peer} {phys : UInt8} {params out}
    (h : step cfg s (.cmd (.extendedCreateConnection rnd policy own peer phys params)) =
      .ok s' (some .success) out) :
    s.legacyInUse = false ∧ s.initiator.enable = false ∧ phys.toNat < 8 ∧ phys.toNat ≠ 0 ∧
    params.length = bitCount phys.toNat ∧
    (∀ p ∈ params, LegalRanges p ∧ TimeoutRuleWeak p.intervalMax p.maxLatency p.supervisionTimeout) ∧
    OwnAddressAvailable s policy peer own ∧ s'.initiator.enable = true ∧
    ∀ phy, if phys.toNat.testBit phy.bit then
        ∃ p, listedFor phys.toNat params phy = some p ∧ s'.initiator.phy phy = ⟨true, p⟩
      else (s'.initiator.phy phy).enabled = false := by
  have hp := phys.toNat_lt
  obtain ⟨e, he, heq, -⟩ := step_cmd h
  cases heq
  obtain ⟨hs', hst⟩ := runCmd_ret_of he
  generalize phys.toNat = phys at *
  simp only [extendedCreateConnection, withExtended, checkedThen] at hs' hst
  split at hst
  · cases hst
  · rename_i hx
    rw [if_neg hx] at hs'
    split at hst
    · rename_i hc
      rw [if_pos hc] at hs'
      obtain ⟨h1, h2, h3, h4, h5⟩ := (extConnChecks_iff (s := s) hp).1 hc
      split at hst
      · cases hst
      · rename_i ha
        rw [if_neg ha] at hs'
        have ha' := Bool.eq_false_iff.2 ha
        rw [initiatorAddressCheck_snd] at ha'
        obtain ⟨r, hr⟩ := initiatorAddressCheck_fst rnd { s with extendedInUse := true } policy peer own
        rw [hr] at hs'
        subst hs'
        refine ⟨Bool.eq_false_iff.2 hx, h1, h2, h3, h4, h5, ?_, rfl, ?_⟩
        · cases own <;> exact ha'
        · have hb : phys = 0 ∨ phys = 1 ∨ phys = 2 ∨ phys = 3 ∨ phys = 4 ∨ phys = 5 ∨ phys = 6 ∨ phys = 7 := by
            omega
          match params, h4 with
          | params, h4 =>
          rcases hb with rfl | rfl | rfl | rfl | rfl | rfl | rfl | rfl
          · exact absurd rfl h3
          all_goals
            rcases params with _ | ⟨p0, _ | ⟨p1, _ | ⟨p2, _ | ⟨p3, ps⟩⟩⟩⟩ <;>
              first | (cases h4; done) | skip
            intro phy
            cases phy <;> first | exact ⟨_, rfl, rfl⟩ | rfl
    · rename_i hc
      exact absurd hst.symm hc

theorem extendedCreateConnection_accepts {cfg : Config} {s : State} {rnd policy own peer} {phys : UInt8} {params}
    (hp : phys.toNat < 8) (h1 : s.legacyInUse = false) (h2 : s.initiator.enable = false) (h3 : phys.toNat ≠ 0)
    (h4 : params.length = bitCount phys.toNat)
    (h5 : ∀ p ∈ params, LegalRanges p ∧ TimeoutRuleWeak p.intervalMax p.maxLatency p.supervisionTimeout)
    (h6 : OwnAddressAvailable s policy peer own) :
    ∃ s', step cfg s (.cmd (.extendedCreateConnection rnd policy own peer phys params)) =
      .ok s' (some .success) [] := by
  have hc := (extConnChecks_iff (s := s) (by omega)).2 ⟨h2, hp, h3, h4, h5⟩
  unfold extConnChecks at hc
  have ha : (initiatorAddressCheck rnd { s with extendedInUse := true } policy peer own).2 = false := by
    rw [initiatorAddressCheck_snd]
    cases own <;> exact h6
  simp only [step, runCmd, extendedCreateConnection, withExtended, checkedThen]
  rw [if_neg (by rw [h1]; exact Bool.false_ne_true), if_pos hc, if_neg (by rw [ha]; exact Bool.false_ne_true)]
  exact ⟨_, rfl⟩

/-! ### Scan parameters -/

/-- The checks of LE Set Extended Scan Parameters. -/
def extScanChecks (cfg : Config) (s : State) (phys : Nat) (params : List ScanPhyParams) :
    List (Bool × Status) :=
  [(s.scanner.enable, .commandDisallowed),
   (phys &&& (0xff - cfg.supportedPhys) != 0, .unsupportedFeatureOrParameterValue),
   (popcount phys != params.length, .invalidHciCommandParameters),
   (phys == 0, .invalidHciCommandParameters)] ++
  params.flatMap (fun p =>
    [(decide (p.interval < 0x4 ∨ p.window < 0x4), .invalidHciCommandParameters),
     (decide (p.window > p.interval), .invalidHciCommandParameters)])

theorem extScanChecks_iff {cfg : Config} {s : State} {phys : Nat} {params : List ScanPhyParams}
    (hp : phys < 256) :
    firstError (extScanChecks cfg s phys params) = .success ↔
      s.scanner.enable = false ∧ OnlySupported cfg phys ∧ phys ≠ 0 ∧
      params.length = bitCount phys ∧ ∀ p ∈ params, 0x4 ≤ p.window ∧ p.window ≤ p.interval := by
  have herr : ∀ x ∈ params.flatMap (fun p : ScanPhyParams =>
      [(decide (p.interval < 0x4 ∨ p.window < 0x4), Status.invalidHciCommandParameters),
       (decide (p.window > p.interval), Status.invalidHciCommandParameters)]), x.2 ≠ .success := by
    intro x hx
    obtain ⟨p, -, hx⟩ := List.mem_flatMap.1 hx
    simp only [List.mem_cons, List.not_mem_nil, or_false] at hx
    rcases hx with rfl | rfl <;> simp
  unfold extScanChecks
  simp only [List.cons_append, List.nil_append]
  rw [firstError_cons (by simp), firstError_cons (by simp), firstError_cons (by simp),
    firstError_cons (by simp), firstError_iff herr, onlySupported_iff cfg phys hp, popcount_eq]
  simp only [bne_eq_false_iff_eq, beq_eq_false_iff_ne, ne_eq]
  constructor
  · rintro ⟨h1, h2, h3, h4, h5⟩
    refine ⟨h1, h2, h4, h3.symm, fun p hpm => ?_⟩
    have a := h5 _ (List.mem_flatMap.2 ⟨p, hpm, List.mem_cons_self⟩)
    have b := h5 _ (List.mem_flatMap.2 ⟨p, hpm, List.mem_cons_of_mem _ List.mem_cons_self⟩)
    simp only [decide_eq_false_iff_not] at a b
    omega
  · rintro ⟨h1, h2, h4, h3, h5⟩
    refine ⟨h1, h2, h3.symm, h4, fun x hx => ?_⟩
    obtain ⟨p, hpm, hx⟩ := List.mem_flatMap.1 hx
    have := h5 p hpm
    simp only [List.mem_cons, List.not_mem_nil, or_false] at hx
    rcases hx with rfl | rfl <;> simp only [decide_eq_false_iff_not] <;> omega

theorem extScan_cases {cfg : Config} {s : State} {own policy} {phys : UInt8} {params} :
    (∃ s', step cfg s (.cmd (.setExtendedScanParameters own policy phys params)) =
        .ok s' (some .success) [] ∧
      s.legacyInUse = false ∧ s.scanner.enable = false ∧ OnlySupported cfg phys.toNat ∧ phys.toNat ≠ 0 ∧
      params.length = bitCount phys.toNat ∧ (∀ p ∈ params, 0x4 ≤ p.window ∧ p.window ≤ p.interval) ∧
      s'.scanner.ownAddressType = own ∧ s'.scanner.filterPolicy = policy ∧
      s'.scanner.le1m = (if phys.toNat.testBit 0 then (paramAt ⟨.passive, 0, 0⟩ params 0).toPhy else { s.scanner.le1m with enabled := false }) ∧
      s'.scanner.leCoded = (if phys.toNat.testBit 2 then (paramAt ⟨.passive, 0, 0⟩ params (if phys.toNat.testBit 0 then 1 else 0)).toPhy else { s.scanner.leCoded with enabled := false })) ∨
    (∃ s' e, step cfg s (.cmd (.setExtendedScanParameters own policy phys params)) =
        .ok s' (some e) [] ∧ e ≠ .success ∧
      (∃ x, s' = { s with extendedInUse := x }) ∧
      ¬ (s.legacyInUse = false ∧ s.scanner.enable = false ∧ OnlySupported cfg phys.toNat ∧ phys.toNat ≠ 0 ∧
        params.length = bitCount phys.toNat ∧ (∀ p ∈ params, 0x4 ≤ p.window ∧ p.window ≤ p.interval))) := by
  simp only [step, runCmd, setExtendedScanParameters, withExtended]
  have hp := phys.toNat_lt
  generalize phys.toNat = phys at *
  by_cases hx : s.legacyInUse = true
  · rw [if_pos hx]
    exact Or.inr ⟨_, _, rfl, by simp, ⟨s.extendedInUse, rfl⟩, by simp [hx]⟩
  · rw [if_neg hx]
    simp only [checked, checkedThen]
    by_cases hc : firstError (extScanChecks cfg s phys params) = .success
    · have hc' := hc
      unfold extScanChecks at hc'
      rw [if_pos hc']
      rw [extScanChecks_iff hp] at hc
      exact Or.inl ⟨_, rfl, Bool.eq_false_iff.2 hx, hc.1, hc.2.1, hc.2.2.1, hc.2.2.2.1, hc.2.2.2.2, rfl, rfl, rfl, rfl⟩
    · have hc' := hc
      unfold extScanChecks at hc'
      rw [if_neg hc']
      rw [extScanChecks_iff hp] at hc
      exact Or.inr ⟨_, _, rfl, hc', ⟨true, rfl⟩, fun h => hc h.2⟩

/-! ### Initiating parameters in every reachable state -/

/-- Every PHY the initiator uses has legal parameters. -/
def InitOk (s : State) : Prop :=
  ∀ phy, (s.initiator.phy phy).enabled = true →
    LegalRanges (s.initiator.phy phy).params ∧
    TimeoutRuleWeak (s.initiator.phy phy).params.intervalMax (s.initiator.phy phy).params.maxLatency
      (s.initiator.phy phy).params.supervisionTimeout

/-- Commands that write the initiator's parameters. -/
def Cmd.isCreate : Cmd → Bool
  | .createConnection .. | .extendedCreateConnection .. => true
  | _ => false

theorem runCmd_initPhy {cfg : Config} {s s' : State} {c : Cmd} {e : Status}
    (hc : c.isCreate = false) (h : runCmd cfg s c = .ret s' e) (phy : Phy) :
    s'.initiator.phy phy = s.initiator.phy phy := by
  cases c
  case setExtAdvertisingEnable =>
    obtain ⟨m, r, x, rfl⟩ := extEnable_frame (runCmd_extEnable h); rfl
  all_goals first | (cases hc; done) | skip
  all_goals
    obtain ⟨rfl, -⟩ := runCmd_ret_of h
    unfold_handlers
    repeat' split
    all_goals first | rfl | (cases phy <;> rfl) | (simp_all; done)

theorem listedFor_mem {α : Type} {mask : Nat} {params : List α} {phy : Phy} {p : α}
    (h : listedFor mask params phy = some p) : p ∈ params := by
  unfold listedFor at h
  split at h
  · exact List.mem_of_getElem? h
  · cases h

theorem runCmd_initiator_fail {cfg : Config} {s s' : State} {c : Cmd} {e : Status}
    (hc : c.isCreate = true) (h : runCmd cfg s c = .ret s' e) (he : e ≠ .success) :
    s'.initiator = s.initiator := by
  cases c
  all_goals first | (cases hc; done) | skip
  all_goals
    obtain ⟨rfl, rfl⟩ := runCmd_ret_of h
    revert he
    unfold_handlers
    repeat' split
    all_goals first | (intro _; rfl) | (intro h; exact absurd rfl h)

theorem initOk_step {cfg : Config} {s s' : State} {o : Op} {st out} (hs : InitOk s)
    (h : step cfg s o = .ok s' st out) : InitOk s' := by
  rcases o with c | e
  · obtain ⟨e, he, rfl, -⟩ := step_cmd h
    by_cases hc : c.isCreate = false
    · intro phy; rw [runCmd_initPhy hc he]; exact hs phy
    · have hc := (by simpa using hc : c.isCreate = true)
      by_cases hok : e = .success
      · subst hok
        cases c
        case createConnection =>
          obtain ⟨-, -, hl, -, -, h1, h2, h3⟩ := createConnection_success h
          intro phy hen
          cases phy
          · simp only [Initiator.phy, h1]; exact hl
          · simp [Initiator.phy, h2] at hen
          · simp [Initiator.phy, h3] at hen
        case extendedCreateConnection =>
          obtain ⟨-, -, -, -, -, hl, -, -, hphy⟩ := extendedCreateConnection_success h
          intro phy hen
          have := hphy phy
          split at this
          · obtain ⟨p, hm, hp⟩ := this
            rw [hp]; exact hl p (listedFor_mem hm)
          · rw [this] at hen; cases hen
        all_goals cases hc
      · intro phy; rw [runCmd_initiator_fail hc he hok]; exact hs phy
  · obtain ⟨he, -⟩ := step_env h
    cases e
    case tick => obtain ⟨m, -, rfl, -⟩ := runEnv_tick he; exact hs
    all_goals unfold_env he
    all_goals first
      | exact hs
      | (intro phy hen; cases phy <;> first | exact hs .le1m hen | exact hs .le2m hen | exact hs .leCoded hen)
      | (intro phy hen; cases phy <;> cases hen)

theorem initOk_reachable {cfg : Config} {s : State} (h : Reachable cfg s) : InitOk s :=
  reachable_invariant (fun a phy hen => by cases phy <;> cases hen)
    (fun _ _ _ _ _ hs hstep => initOk_step hs hstep) h

end Verif.Le
