import Verif.Le.ParamLemmas
import Verif.Le.PropsLists
/-!
# Connection and scan parameters (C22, C23)
-/

namespace Verif.Le

/-! ## C22: connection parameters -/

/-- **C22, partial (LE Create Connection).** The command is accepted exactly when no
extended command was used, no connection is being created, the own address is available
and every parameter is legal, and the initiator then uses exactly these parameters.
Missing: the supervision timeout may also equal its bound (`TimeoutRuleWeak` instead of
`TimeoutRule`, see `C22_create_connection_violated`). -/
theorem C22_create_connection_partial {cfg : Config} {s : State} {rnd policy peer own} {p : ConnParams} :
    ((∃ s', step cfg s (.cmd (.createConnection rnd policy peer own p)) = .ok s' (some .success) []) ↔
      s.extendedInUse = false ∧ s.initiator.enable = false ∧ OwnAddressAvailable s policy peer own ∧
      LegalRanges p ∧ TimeoutRuleWeak p.intervalMax p.maxLatency p.supervisionTimeout) ∧
    ∀ s', step cfg s (.cmd (.createConnection rnd policy peer own p)) = .ok s' (some .success) [] →
      s'.initiator.enable = true ∧ s'.initiator.phy .le1m = ⟨true, p⟩ ∧
      (s'.initiator.phy .le2m).enabled = false ∧ (s'.initiator.phy .leCoded).enabled = false := by
  refine ⟨⟨?_, ?_⟩, ?_⟩
  · rintro ⟨s', h⟩
    obtain ⟨h1, h2, h3, h4, -⟩ := createConnection_success h
    exact ⟨h1, h2, h4, h3⟩
  · rintro ⟨h1, h2, h4, h3⟩
    exact createConnection_accepts h1 h2 h3 h4
  · intro s' h
    obtain ⟨-, -, -, -, h5, h6, h7, h8⟩ := createConnection_success h
    exact ⟨h5, h6, h7, h8⟩

/-- The timeout rule separates legal from illegal parameters that are accepted. -/
example : LegalRanges exampleConn ∧ TimeoutRule exampleConn.intervalMax exampleConn.maxLatency
    exampleConn.supervisionTimeout := by
  refine ⟨⟨⟨?_, ?_, ?_⟩, ⟨?_, ?_, ?_⟩, ?_, ⟨?_, ?_⟩⟩, ?_⟩ <;> (unfold exampleConn; first | decide | (unfold TimeoutRule; decide))

/-- Connection parameters whose supervision timeout equals
(1 + latency) * interval_max * 2: 100 ms for an interval of 50 ms. -/
def boundaryConn : ConnParams := ⟨0x10, 0x10, 0x18, 0x28, 0, 0xa, 0, 0⟩

/-- **C22, violated (LE Create Connection).** The command accepts a supervision timeout
that is not larger than (1 + latency) * interval_max * 2. -/
theorem C22_create_connection_violated :
    ¬ TimeoutRule boundaryConn.intervalMax boundaryConn.maxLatency boundaryConn.supervisionTimeout ∧
    ∃ s', step Config.default (initial none)
      (.cmd (.createConnection (fun _ => 0) .usePeerAddress ⟨1, .publicDevice⟩ .pub boundaryConn)) =
        .ok s' (some .success) [] :=
  ⟨by unfold TimeoutRule; decide, _, rfl⟩

/-- **C22, partial (LE Extended Create Connection).** The command is accepted exactly
when no legacy command was used, no connection is being created, the own address is
available, the mask is a non-empty set of known PHYs, one parameter set is given per PHY
and each set is legal; the initiator then uses on every PHY of the mask the parameters
listed for it, and no other PHY. Missing: equality in the timeout rule. -/
theorem C22_extended_create_connection_partial {cfg : Config} {s : State} {rnd policy own peer}
    {phys : UInt8} {params : List ConnParams} :
    ((∃ s', step cfg s (.cmd (.extendedCreateConnection rnd policy own peer phys params)) =
        .ok s' (some .success) []) ↔
      s.legacyInUse = false ∧ s.initiator.enable = false ∧ OwnAddressAvailable s policy peer own ∧
      phys.toNat < 8 ∧ phys.toNat ≠ 0 ∧ params.length = bitCount phys.toNat ∧
      ∀ p ∈ params, LegalRanges p ∧ TimeoutRuleWeak p.intervalMax p.maxLatency p.supervisionTimeout) ∧
    ∀ s', step cfg s (.cmd (.extendedCreateConnection rnd policy own peer phys params)) =
        .ok s' (some .success) [] →
      s'.initiator.enable = true ∧
      ∀ phy, if phys.toNat.testBit phy.bit then
          ∃ p, listedFor phys.toNat params phy = some p ∧ s'.initiator.phy phy = ⟨true, p⟩
        else (s'.initiator.phy phy).enabled = false := by
  refine ⟨⟨?_, ?_⟩, ?_⟩
  · rintro ⟨s', h⟩
    obtain ⟨h1, h2, h3, h4, h5, h6, h7, -⟩ := extendedCreateConnection_success h
    exact ⟨h1, h2, h7, h3, h4, h5, h6⟩
  · rintro ⟨h1, h2, h7, h3, h4, h5, h6⟩
    exact extendedCreateConnection_accepts h3 h1 h2 h4 h5 h6 h7
  · intro s' h
    obtain ⟨-, -, -, -, -, -, -, h8, h9⟩ := extendedCreateConnection_success h
    exact ⟨h8, h9⟩

/-- Coded and 1M PHY together: the second entry is for the coded PHY. -/
example : ∃ s', step Config.default (initial none) (.cmd (.extendedCreateConnection (fun _ => 0)
      .usePeerAddress .pub ⟨1, .publicDevice⟩ 5 [exampleConn, { exampleConn with maxLatency := 1, supervisionTimeout := 0x80 }])) =
        .ok s' (some .success) [] ∧
    s'.initiator.phy .leCoded = ⟨true, { exampleConn with maxLatency := 1, supervisionTimeout := 0x80 }⟩ ∧
    (s'.initiator.phy .le2m).enabled = false :=
  ⟨_, rfl, rfl, rfl⟩

/-- **C22, violated (LE Extended Create Connection).** -/
theorem C22_extended_create_connection_violated :
    ∃ s', step Config.default (initial none)
      (.cmd (.extendedCreateConnection (fun _ => 0) .usePeerAddress .pub ⟨1, .publicDevice⟩ 1
        [boundaryConn])) = .ok s' (some .success) [] :=
  ⟨_, rfl⟩

/-- **C22, partial (parameters in use).** In every reachable state, the parameters of
every PHY the initiator uses are legal, up to equality in the timeout rule. -/
theorem C22_parameters_in_use_partial {cfg : Config} {s : State} (h : Reachable cfg s) (phy : Phy)
    (he : (s.initiator.phy phy).enabled = true) :
    LegalRanges (s.initiator.phy phy).params ∧
    TimeoutRuleWeak (s.initiator.phy phy).params.intervalMax (s.initiator.phy phy).params.maxLatency
      (s.initiator.phy phy).params.supervisionTimeout :=
  initOk_reachable h phy he

/-- **C22, partial (connect request).** When the initiator uses the 1M PHY, the
connection request it sends has a legal timing. Missing: other PHYs, see
`C22_connect_request_violated`. -/
theorem C22_connect_request_partial {cfg : Config} {s : State} (h : Reachable cfg s)
    (he : s.initiator.le1m.enabled = true) :
    6 ≤ (connectRequestTiming s.initiator).interval ∧ (connectRequestTiming s.initiator).interval ≤ 0xc80 ∧
    (connectRequestTiming s.initiator).latency ≤ 0x1f3 ∧
    TimeoutRuleWeak (connectRequestTiming s.initiator).interval (connectRequestTiming s.initiator).latency
      (connectRequestTiming s.initiator).supervisionTimeout := by
  obtain ⟨h1, h2⟩ := initOk_reachable h .le1m he
  obtain ⟨hi1, hi2, hi3⟩ := h1.interval
  exact ⟨Nat.le_trans hi1 hi2, hi3, h1.latency, h2⟩

/-- **C22, violated (connect request).** An initiator that was asked to use the coded
PHY only sends a connection request with interval 0, latency 0 and timeout 0: the request
takes the parameters of the 1M PHY. -/
theorem C22_connect_request_violated :
    ∃ s, Reachable Config.default s ∧ s.initiator.enable = true ∧
      s.initiator.phy .leCoded = ⟨true, exampleConn⟩ ∧
      connectRequestTiming s.initiator = ⟨0, 0, 0⟩ := by
  refine ⟨_, ⟨none, [.cmd (.extendedCreateConnection (fun _ => 0) .usePeerAddress .pub
    ⟨1, .publicDevice⟩ 4 [exampleConn])], rfl⟩, rfl, rfl, rfl⟩

/-- **C22 (parameter reply).** LE Remote Connection Parameter Request Reply is accepted
exactly when the connection exists and the parameters are legal, with the timeout rule
in its strict form, and the connection then uses them. -/
theorem C22_parameter_reply {t : Option LinkTiming} {p : ReplyParams} :
    ((parameterRequestReply t p).2 = .success ↔
      t.isSome = true ∧ 6 ≤ p.intervalMin ∧ p.intervalMin ≤ p.intervalMax ∧ p.intervalMax ≤ 0xc80 ∧
      p.latency ≤ 0x1f3 ∧ 0xa ≤ p.supervisionTimeout ∧ p.supervisionTimeout ≤ 0xc80 ∧
      TimeoutRule p.intervalMax p.latency p.supervisionTimeout ∧ p.minCeLength ≤ p.maxCeLength) ∧
    ((parameterRequestReply t p).2 = .success →
      (parameterRequestReply t p).1 = some ⟨p.intervalMin, p.latency, p.supervisionTimeout⟩ ∧
      TimeoutRule p.intervalMin p.latency p.supervisionTimeout) ∧
    ((parameterRequestReply t p).2 ≠ .success → (parameterRequestReply t p).1 = t) := by
  have e2 : ∀ i, (1 + p.latency) * (i * 1250) * 2 = ((1 + p.latency) * i) * 2500 := by
    intro i; rw [← Nat.mul_assoc]; omega
  have hmono : p.intervalMin ≤ p.intervalMax →
      (1 + p.latency) * p.intervalMin ≤ (1 + p.latency) * p.intervalMax := Nat.mul_le_mul_left _
  unfold TimeoutRule
  rw [e2, e2]
  rcases t with _ | t
  · simp [parameterRequestReply]
  · simp only [parameterRequestReply]
    generalize (1 + p.latency) * p.intervalMin = Y at *
    generalize (1 + p.latency) * p.intervalMax = X at *
    split
    · simp only [reduceCtorEq, false_iff, Option.isSome_some, true_and, false_imp_iff, implies_true, and_true]
      omega
    · split
      · simp only [reduceCtorEq, false_iff, Option.isSome_some, true_and, false_imp_iff, implies_true, and_true]
        omega
      · simp only [true_iff, Option.isSome_some, true_and, true_imp_iff, ne_eq, not_true_eq_false, false_imp_iff, and_true]
        omega

example : parameterRequestReply (some ⟨0x18, 0, 0x2a⟩) ⟨6, 40, 1, 21, 0, 0⟩ = (some ⟨6, 1, 21⟩, .success) := rfl
example : parameterRequestReply (some ⟨0x18, 0, 0x2a⟩) ⟨6, 40, 1, 20, 0, 0⟩ =
    (some ⟨0x18, 0, 0x2a⟩, .invalidHciCommandParameters) := rfl

/-- **C22, violated (LE Connection Update).** As central, any values are accepted and
adopted by the peer: here interval 1, latency 65535, supervision timeout 0. -/
theorem C22_connection_update_violated :
    connectionUpdate (some ⟨0x18, 0, 0x2a⟩) 1 0xffff 0 = (some ⟨1, 0xffff, 0⟩, .success) ∧
    ¬ TimeoutRule 1 0xffff 0 :=
  ⟨rfl, by unfold TimeoutRule; decide⟩

/-! ## C23: scan parameters -/

/-- **C23 (legacy).** LE Set Scan Parameters is accepted exactly when no extended command
was used, the scanner is idle and the window and interval are legal; the scanner then
uses them on the 1M PHY only. A rejected command leaves the scanner alone. -/
theorem C23_legacy {cfg : Config} {s : State} {t interval window own policy} :
    ((∃ s', step cfg s (.cmd (.setScanParameters t interval window own policy)) = .ok s' (some .success) []) ↔
      s.extendedInUse = false ∧ s.scanner.enable = false ∧ LegalWindow interval window) ∧
    ∀ s' st, step cfg s (.cmd (.setScanParameters t interval window own policy)) = .ok s' (some st) [] →
      (st = .success → (s'.scanner.phy .le1m).uses ⟨t, interval, window⟩ ∧
        (s'.scanner.phy .leCoded).enabled = false ∧ s'.scanner.ownAddressType = own ∧
        s'.scanner.filterPolicy = policy) ∧
      (st ≠ .success → s'.scanner = s.scanner) := by
  simp only [step, runCmd, setScanParameters, withLegacy]
  by_cases hx : s.extendedInUse = true
  · rw [if_pos hx]
    refine ⟨⟨?_, ?_⟩, ?_⟩
    · rintro ⟨s', h⟩; cases h
    · rintro ⟨h, -⟩; rw [hx] at h; cases h
    · intro s' st h; cases h
      exact ⟨fun h => (by cases h), fun _ => rfl⟩
  · rw [if_neg hx]
    rcases checked_cases [(s.scanner.enable, .commandDisallowed),
       (decide (interval < 0x4 ∨ interval > 0x4000 ∨ window < 0x4 ∨ window > 0x4000),
          .unsupportedFeatureOrParameterValue),
       (decide (window > interval), .invalidHciCommandParameters)] { s with legacyInUse := true }
       { s with legacyInUse := true, scanner := { s.scanner with le1m := ⟨true, t, interval, window⟩, leCoded := { s.scanner.leCoded with enabled := false }, ownAddressType := own, filterPolicy := policy } } with ⟨hc, hr⟩ | ⟨hc, hr⟩
    all_goals
      rw [hr]
      have hc' := hc
      simp only [firstError_cons, ne_eq, reduceCtorEq, not_false_eq_true, firstError_nil,
        decide_eq_false_iff_not, and_true] at hc
    · refine ⟨⟨fun _ => ⟨Bool.eq_false_iff.2 hx, hc.1, ?_⟩, fun _ => ⟨_, rfl⟩⟩, ?_⟩
      · unfold LegalWindow; omega
      · intro s' st h; cases h
        exact ⟨fun _ => ⟨⟨rfl, rfl, rfl, rfl⟩, rfl, rfl, rfl⟩, fun h => absurd rfl h⟩
    · refine ⟨⟨?_, ?_⟩, ?_⟩
      · rintro ⟨s', h⟩
        simp only [Result.of, Outcome.ok.injEq, Option.some.injEq] at h
        exact absurd h.2.1 hc'
      · rintro ⟨-, h1, h2⟩
        unfold LegalWindow at h2
        exact absurd ⟨h1, by omega, by omega⟩ hc
      · intro s' st h
        cases h
        exact ⟨fun h => absurd h hc', fun _ => rfl⟩

example : ∃ s', step Config.default (initial none) (.cmd (.setScanParameters .active 0x10 0x10 .pub .acceptAll)) =
    .ok s' (some .success) [] ∧ (s'.scanner.phy .le1m).uses ⟨.active, 0x10, 0x10⟩ :=
  ⟨_, rfl, rfl, rfl, rfl, rfl⟩

/-- **C23, partial (extended, acceptance).** LE Set Extended Scan Parameters is accepted
exactly when no legacy command was used, the scanner is idle, the mask is not empty and
names supported PHYs, one parameter set is given per PHY, and each window/interval pair
is legal. A rejected command leaves the scanner alone. Missing: the 2M PHY is accepted
although no scanning takes place on it (`C23_2m_accepted_violated`). -/
theorem C23_extended_accepted_partial {cfg : Config} {s : State} {own policy} {phys : UInt8}
    {params : List ScanPhyParams} :
    ((∃ s', step cfg s (.cmd (.setExtendedScanParameters own policy phys params)) = .ok s' (some .success) []) ↔
      s.legacyInUse = false ∧ s.scanner.enable = false ∧ OnlySupported cfg phys.toNat ∧ phys.toNat ≠ 0 ∧
      params.length = bitCount phys.toNat ∧ ∀ p ∈ params, 0x4 ≤ p.window ∧ p.window ≤ p.interval) ∧
    ∀ s' st, step cfg s (.cmd (.setExtendedScanParameters own policy phys params)) = .ok s' (some st) [] →
      st ≠ .success → s'.scanner = s.scanner := by
  rcases extScan_cases (cfg := cfg) (s := s) (own := own) (policy := policy) (phys := phys)
    (params := params) with ⟨s1, h1, a, b, c, d, e, f, -⟩ | ⟨s1, st1, h1, hst, ⟨x, hx⟩, hn⟩
  · refine ⟨⟨fun _ => ⟨a, b, c, d, e, f⟩, fun _ => ⟨s1, h1⟩⟩, fun s' st h hne => ?_⟩
    rw [h1] at h; cases h; exact absurd rfl hne
  · refine ⟨⟨?_, fun h => absurd h hn⟩, fun s' st h hne => ?_⟩
    · rintro ⟨s', h⟩; rw [h1] at h; cases h; exact absurd rfl hst
    · rw [h1] at h; cases h; rw [hx]

/-- **C23, partial (extended, use).** After an accepted command without the 2M PHY in
its mask, every PHY of the mask is scanned with the parameters the host listed for it
and no other PHY is scanned. Missing: masks with the 2M PHY (`C23_2m_shifts_violated`). -/
theorem C23_extended_used_partial {cfg : Config} {s s' : State} {own policy} {phys : UInt8}
    {params : List ScanPhyParams} (h2m : phys.toNat.testBit Phy.le2m.bit = false)
    (h : step cfg s (.cmd (.setExtendedScanParameters own policy phys params)) = .ok s' (some .success) []) :
    s'.scanner.ownAddressType = own ∧ s'.scanner.filterPolicy = policy ∧
    ∀ phy, if phys.toNat.testBit phy.bit then
        ∃ q, listedFor phys.toNat params phy = some q ∧ (s'.scanner.phy phy).uses q
      else (s'.scanner.phy phy).enabled = false := by
  rcases extScan_cases (cfg := cfg) (s := s) (own := own) (policy := policy) (phys := phys)
    (params := params) with ⟨s1, h1, a, b, c, d, e, f, g1, g2, g3, g4⟩ | ⟨s1, st1, h1, hst, -⟩
  · rw [h1] at h; cases h
    refine ⟨g1, g2, fun phy => ?_⟩
    generalize phys.toNat = n at *
    have h8 : bitCount n = (if n.testBit 0 then 1 else 0) + (if n.testBit 2 then 1 else 0) := by
      have hb : ∀ i, 3 ≤ i → i < 8 → n.testBit i = false := by
        intro i h3 hi
        rw [Bool.eq_false_iff]
        intro ht
        obtain ⟨phy, hp, -⟩ := c i hi ht
        cases phy <;> simp only [Phy.bit] at hp <;> omega
      have h1 : n.testBit 1 = false := h2m
      unfold bitCount
      have : List.range 8 = [0, 1, 2, 3, 4, 5, 6, 7] := rfl
      rw [this]
      simp only [List.filter_cons, List.filter_nil, h1, hb 3 (by decide) (by decide),
        hb 4 (by decide) (by decide), hb 5 (by decide) (by decide), hb 6 (by decide) (by decide),
        hb 7 (by decide) (by decide)]
      cases n.testBit 0 <;> cases n.testBit 2 <;> rfl
    rw [h8] at e
    cases phy
    · simp only [Phy.bit, Scanner.phy, g3]
      by_cases h0 : n.testBit 0 = true
      · simp only [h0, if_true]
        rcases params with _ | ⟨p0, ps⟩
        · simp only [h0, if_true, List.length_nil] at e; omega
        · refine ⟨p0, ?_, rfl, rfl, rfl, rfl⟩
          simp only [listedFor, Phy.bit, h0, if_true]; rfl
      · simp [h0]
    · simp only [Scanner.phy, h2m, Bool.false_eq_true, if_false]
    · simp only [Phy.bit, Scanner.phy, g4]
      by_cases h2 : n.testBit 2 = true
      · simp only [h2, if_true]
        have hr : List.range 2 = [0, 1] := rfl
        have hb1 : n.testBit 1 = false := h2m
        by_cases h0 : n.testBit 0 = true
        · rw [h0, h2] at e
          rcases params with _ | ⟨p0, _ | ⟨p1, ps⟩⟩
          · cases e
          · cases e
          · refine ⟨p1, ?_, ?_⟩
            · simp only [listedFor, Phy.bit, h2, if_true, hr, List.filter_cons, List.filter_nil, h0, hb1]; rfl
            · rw [if_pos h0]; exact ⟨rfl, rfl, rfl, rfl⟩
        · rcases params with _ | ⟨p0, ps⟩
          · simp only [h2, if_true, List.length_nil] at e; omega
          · refine ⟨p0, ?_, ?_⟩
            · simp only [listedFor, Phy.bit, h2, if_true, hr, List.filter_cons, List.filter_nil, h0, hb1]; rfl
            · rw [if_neg h0]; exact ⟨rfl, rfl, rfl, rfl⟩
      · simp [h2]
  · rw [h1] at h; cases h; exact absurd rfl hst

/-- 1M and coded PHY with different parameters. -/
example : ∃ s', step Config.default (initial none) (.cmd (.setExtendedScanParameters .pub .acceptAll 5
      [⟨.active, 0x10, 0x8⟩, ⟨.passive, 0x40, 0x20⟩])) = .ok s' (some .success) [] ∧
    (s'.scanner.phy .leCoded).uses ⟨.passive, 0x40, 0x20⟩ :=
  ⟨_, rfl, rfl, rfl, rfl, rfl⟩

/-- **C23, violated (2M PHY accepted).** Scanning on the 2M PHY only, which does not
exist, is accepted and leaves the scanner without any PHY. -/
theorem C23_2m_accepted_violated :
    ∃ s', step Config.default (initial none) (.cmd (.setExtendedScanParameters .pub .acceptAll 2
      [⟨.active, 0x10, 0x8⟩])) = .ok s' (some .success) [] ∧
    ∀ phy, (s'.scanner.phy phy).enabled = false :=
  ⟨_, rfl, fun phy => by cases phy <;> rfl⟩

/-- **C23, violated (2M PHY shifts the parameters).** With the mask 2M + coded, the coded
PHY is scanned with the parameters listed for the 2M PHY. -/
theorem C23_2m_shifts_violated :
    ∃ s', step Config.default (initial none) (.cmd (.setExtendedScanParameters .pub .acceptAll 6
      [⟨.active, 0x10, 0x8⟩, ⟨.passive, 0x40, 0x20⟩])) = .ok s' (some .success) [] ∧
    listedFor 6 [ScanPhyParams.mk .active 0x10 0x8, ⟨.passive, 0x40, 0x20⟩] .leCoded =
      some ⟨.passive, 0x40, 0x20⟩ ∧
    (s'.scanner.phy .leCoded).uses ⟨.active, 0x10, 0x8⟩ :=
  ⟨_, rfl, rfl, rfl, rfl, rfl, rfl⟩

end Verif.Le
