import Verif.Le.AdvLemmas
/-!
# C19, C20: advertising sets
-/

namespace Verif.Le

/-! ## C19 -/

/-- **C19 (sets).** In every reachable state the properties of every advertising set
are understood by the advertising routine, and the data of every enabled set fits. -/
theorem C19_sets_are_legal {cfg : Config} {s : State} (hr : Reachable cfg s) {h : UInt8} {a : ExtAdv}
    (ha : (h, a) ∈ s.extAdv) :
    Understood a.properties ∧ a.interval ≥ 0x20 ∧ a.channelMap ≠ 0 ∧
    a.scanResponse.length ≤ scanResponseLimit a.properties ∧
    (a.enable = true → a.data.length ≤ dataLimit a.properties) ∧
    (a.periodicLatch = true → a.properties.connectable = false ∧ a.properties.scannable = false ∧
      a.properties.legacy = false ∧ a.properties.anonymous = false ∧ a.periodicInterval ≥ 6 ∧
      a.periodicData.length ≤ 1650) := by
  obtain ⟨g, hg⟩ := advsOk_reachable hr
  have he := hg.entries h
  rw [mapFind_of_mem hg.keys ha] at he
  have hok := he.1
  refine ⟨understood_of_ok hok, hok.interval, hok.channels, ?_, ?_, ?_⟩
  · have h1 := hok.noScan
    have h2 := hok.legacyLen
    have h3 := hok.scanMax
    unfold scanResponseLimit
    split
    · rename_i hs; rw [h1 hs]; simp
    · rename_i hl; exact (h2 hl).2
    · exact h3
  · intro hen; rw [← maxData_eq]; exact hok.enabledData hen
  · intro hl
    have hp := hok.periodic (hok.latch hl)
    have h1 := hp.1
    simp only [EventProperties.notPeriodic, Bool.or_eq_false_iff] at h1
    exact ⟨h1.1.1.1, h1.1.1.2, h1.1.2, h1.2, hp.2.2, hok.periodicMax⟩

/-- **C19 (number).** There are never more advertising sets than supported, and their
handles are distinct. -/
theorem C19_number_of_sets {cfg : Config} {s : State} (hr : Reachable cfg s) :
    s.extAdv.length ≤ cfg.numSupportedAdvertisingSets ∧ (s.extAdv.map (·.1)).Nodup := by
  obtain ⟨g, hg⟩ := advsOk_reachable hr
  exact ⟨hg.size, hg.keys⟩

/-- **C19 (no abort).** In every reachable state and at any time the clock tick
completes: the fatal branch of the advertising routine is not reached. -/
theorem C19_tick_never_fatal {cfg : Config} {s : State} (hr : Reachable cfg s) (now : Nat) :
    ∃ s' out, step cfg s (.env (.tick now)) = .ok s' none out := by
  obtain ⟨g, hg⟩ := advsOk_reachable hr
  obtain ⟨r, hx⟩ := Option.isSome_iff_exists.1 (tickExtAll_isSome (now := now) hg)
  simp only [step, runEnv, advertising, hx]
  exact ⟨_, _, rfl⟩

/-- **C19 (on air).** Everything the tick sends is within the limits of its kind:
legacy PDUs carry at most 31 bytes and none when directed; extended PDUs carry none
when scannable, at most 246 when connectable and at most 1650 otherwise; periodic PDUs
carry at most 1650. -/
theorem C19_transmitted_data_fits {cfg : Config} {a : Option Address} {ops : List Op} {s s' : State}
    {now : Nat} {out : List AdvOut} (hp : ∀ o ∈ ops, o.parsed) (hr : run cfg ops (initial a) = some s)
    (h : step cfg s (.env (.tick now)) = .ok s' none out) :
    ∀ o ∈ out, match o with
      | .legacyPdu _ t _ _ data => data.length ≤ 31 ∧ (t = .advDirectIndHigh ∨ t = .advDirectIndLow → data = [])
      | .extendedPdu _ _ _ connectable scannable _ _ _ data =>
          ¬ (connectable = true ∧ scannable = true) ∧ (scannable = true → data = []) ∧
          (connectable = true → data.length ≤ 246) ∧ data.length ≤ 1650
      | .periodicPdu _ _ _ interval data => data.length ≤ 1650 ∧ interval ≥ 6
      | .directedTimeout => True
      | .setTerminated _ _ => True := by
  obtain ⟨g, hg⟩ := advsOk_reachable ⟨a, ops, hr⟩
  have hleg : LegacyOk s := legacyOk_run ops hp (s := initial a) (by simp [LegacyOk, initial]) hr
  obtain ⟨he, -⟩ := step_env h
  obtain ⟨m, hm, -, rfl⟩ := runEnv_tick he
  intro o ho
  rcases List.mem_append.1 ho with ho | ho
  · rcases tickLegacy_out _ _ o ho with rfl | rfl
    · trivial
    · refine ⟨?_, fun ht => by rw [if_pos ht]⟩
      split
      · simp
      · exact hleg.1
  · obtain ⟨k, b, x, hb, hx, hox⟩ := (tickExtAll_spec _ _ hm).2.2 o ho
    have hok : AdvOk b := by
      have := hg.entries k
      rw [mapFind_of_mem hg.keys hb] at this
      exact this.1
    rcases tickExt_out hok hx o hox with ⟨t, rfl, hen, hl, hd⟩ | ⟨rfl, hen, hl⟩ | ⟨rfl, hla⟩ | rfl | ⟨n, rfl⟩
    · refine ⟨(hok.legacyLen hl).1, fun ht => ?_⟩
      have hdir := hd.2 ht
      have := hok.enabledData hen
      rw [maxData_eq] at this
      simp only [dataLimit, hl, hdir] at this
      exact List.eq_nil_of_length_eq_zero (by omega)
    · have h1 := hok.enabledData hen
      have h2 := hok.extended1 hl
      refine ⟨h2, ?_, ?_, ?_⟩
      · intro hs
        exact hok.noData (by simp [EventProperties.canHaveData, hl, hs])
      · intro hc
        rw [maxData_eq] at h1
        have hs : b.properties.scannable = false := by
          cases hsc : b.properties.scannable
          · rfl
          · exact absurd ⟨hc, hsc⟩ h2
        simp only [dataLimit, hl, hs, hc] at h1
        cases hd : b.properties.directed <;> cases hx : b.properties.includeTxPower <;>
          simp [hd, hx] at h1 <;> omega
      · have : dataLimit b.properties ≤ 1650 := by
          unfold dataLimit
          repeat' split
          all_goals omega
        rw [maxData_eq] at h1
        omega
    · exact ⟨hok.periodicMax, (hok.periodic (hok.latch hla)).2.2⟩
    · trivial
    · trivial

/-! ## C20 -/

/-- **C20 (concatenation).** After any sequence of operations the stored advertising,
scan response and periodic advertising data of every set is the concatenation of the
fragments accepted since the last first fragment or complete data. -/
theorem C20_concatenation {cfg : Config} {addr : Option Address} {ops : List Op} {s : State} {g : Ghost}
    (hr : runHist cfg ops (initial addr) {} = some (s, g)) {h : UInt8} {a : ExtAdv}
    (ha : (h, a) ∈ s.extAdv) :
    a.data = assembled (g.data h) ∧ a.scanResponse = assembled (g.scan h) ∧
    a.periodicData = assembled (g.periodic h) := by
  have hg := runHist_ok ops (s := initial addr) (advsOk_nil cfg) hr
  have he := hg.entries h
  rw [mapFind_of_mem hg.keys ha] at he
  exact ⟨he.2.data.1, he.2.scan.1, he.2.periodic.1⟩

/-- **C20 (incomplete data is never advertised).** While a set is enabled its
advertising and scan response data are complete, and what the tick sends for it is the
concatenation of a complete sequence of fragments. The same holds for periodic
advertising. -/
theorem C20_incomplete_never_advertised {cfg : Config} {addr : Option Address} {ops : List Op}
    {s s' : State} {g : Ghost} {now : Nat} {out : List AdvOut}
    (hr : runHist cfg ops (initial addr) {} = some (s, g))
    (ht : step cfg s (.env (.tick now)) = .ok s' none out) :
    (∀ h a, (h, a) ∈ s.extAdv → a.enable = true →
      incomplete (g.data h) = false ∧ incomplete (g.scan h) = false) ∧
    (∀ h a, (h, a) ∈ s.extAdv → a.periodicLatch = true → incomplete (g.periodic h) = false) ∧
    (∀ h adv tgt c sc d sid i data, .extendedPdu h adv tgt c sc d sid i data ∈ out →
      data = assembled (g.data h) ∧ incomplete (g.data h) = false) ∧
    (∀ h adv sid i data, .periodicPdu h adv sid i data ∈ out →
      data = assembled (g.periodic h) ∧ incomplete (g.periodic h) = false) := by
  have hg := runHist_ok ops (s := initial addr) (advsOk_nil cfg) hr
  have hent : ∀ h a, (h, a) ∈ s.extAdv → AdvOk a ∧ HistOk a (g.data h) (g.scan h) (g.periodic h) := by
    intro h a ha
    have he := hg.entries h
    rw [mapFind_of_mem hg.keys ha] at he
    exact he
  have hout : ∀ o ∈ out, (∃ src t adv tgt data, o = .legacyPdu src t adv tgt data) ∨ o = .directedTimeout ∨
      (∃ h a, (h, a) ∈ s.extAdv ∧ ((∃ adv tgt c sc d sid i, o = .extendedPdu h adv tgt c sc d sid i a.data ∧ a.enable = true) ∨
        (∃ adv sid i, o = .periodicPdu h adv sid i a.periodicData ∧ a.periodicLatch = true) ∨
        (∃ n, o = .setTerminated h n))) := by
    obtain ⟨he, -⟩ := step_env ht
    obtain ⟨m, hm, -, rfl⟩ := runEnv_tick he
    intro o ho
    rcases List.mem_append.1 ho with ho | ho
    · rcases tickLegacy_out _ _ o ho with h1 | h1
      · exact Or.inr (Or.inl h1)
      · exact Or.inl ⟨_, _, _, _, _, h1⟩
    · obtain ⟨k, b, x, hb, hx, hox⟩ := (tickExtAll_spec _ _ hm).2.2 o ho
      rcases tickExt_out (hent k b hb).1 hx o hox with ⟨t, h1, -⟩ | ⟨h1, hen, -⟩ | ⟨h1, hla⟩ | h1 | ⟨n, h1⟩
      · exact Or.inl ⟨_, _, _, _, _, h1⟩
      · exact Or.inr (Or.inr ⟨k, b, hb, Or.inl ⟨_, _, _, _, _, _, _, h1, hen⟩⟩)
      · exact Or.inr (Or.inr ⟨k, b, hb, Or.inr (Or.inl ⟨_, _, _, h1, hla⟩)⟩)
      · exact Or.inr (Or.inl h1)
      · exact Or.inr (Or.inr ⟨k, b, hb, Or.inr (Or.inr ⟨n, h1⟩)⟩)
  have hen : ∀ h a, (h, a) ∈ s.extAdv → a.enable = true →
      incomplete (g.data h) = false ∧ incomplete (g.scan h) = false := by
    intro h a ha he
    obtain ⟨h1, h2⟩ := hent h a ha
    rw [← h2.data.2, ← h2.scan.2]; exact h1.enabledWhole he
  have hla : ∀ h a, (h, a) ∈ s.extAdv → a.periodicLatch = true → incomplete (g.periodic h) = false := by
    intro h a ha he
    obtain ⟨h1, h2⟩ := hent h a ha
    rw [← h2.periodic.2]; exact (h1.periodic (h1.latch he)).2.1
  refine ⟨hen, hla, ?_, ?_⟩
  · intro h adv tgt c sc d sid i data hmem
    rcases hout _ hmem with ⟨_, _, _, _, _, h1⟩ | h1 | ⟨k, a, ha, ⟨_, _, _, _, _, _, _, h1, he⟩ | ⟨_, _, _, h1, -⟩ | ⟨_, h1⟩⟩
    · cases h1
    · cases h1
    · cases h1; exact ⟨(hent h a ha).2.data.1, (hen h a ha he).1⟩
    · cases h1
    · cases h1
  · intro h adv sid i data hmem
    rcases hout _ hmem with ⟨_, _, _, _, _, h1⟩ | h1 | ⟨k, a, ha, ⟨_, _, _, _, _, _, _, h1, he⟩ | ⟨_, _, _, h1, he⟩ | ⟨_, h1⟩⟩
    · cases h1
    · cases h1
    · cases h1
    · cases h1; exact ⟨(hent h a ha).2.periodic.1, hla h a ha he⟩
    · cases h1

/-- The three commands that bring data. -/
def Cmd.bringsData : Cmd → Bool
  | .setExtAdvertisingData .. | .setExtScanResponseData .. | .setPeriodicData .. => true
  | _ => false

/-- **C20 (rejected commands), partial.** A data command that fails leaves all
advertising sets as they are, unless it fails because the data became too long
(Memory Capacity Exceeded or Packet Too Long). Missing: those two errors throw the data
away, also the data being advertised (`C20_rejected_data_violated`). -/
theorem C20_rejected_leave_data_partial {cfg : Config} {s s' : State} {c : Cmd} {e : Status} {out}
    (hc : c.bringsData = true) (h : step cfg s (.cmd c) = .ok s' (some e) out) (he : e ≠ .success)
    (hd : discards (some e) = false) : s'.extAdv = s.extAdv := by
  obtain ⟨e', hr, heq, -⟩ := step_cmd h
  cases heq
  cases c
  all_goals first | (cases hc; done) | skip
  all_goals
    obtain ⟨rfl, rfl⟩ := runCmd_ret_of hr
    revert he hd
    simp only [setExtAdvertisingData, setExtScanResponseData, setPeriodicData, withExtended, checkedThen]
    repeat' split
    all_goals intro he hd
    all_goals first
      | rfl
      | exact absurd rfl he
      | cases hd

/-- Connectable extended advertising, used in the witness. -/
def exampleParams (p : EventProperties) : ExtParams :=
  ⟨p, 0x20, 0x20, 7, .pub, .pub, 0, .allDevices, 0, .le1m, 0, .le1m, 0, false⟩

set_option maxRecDepth 8000 in
/-- **C20, violated.** Replacing the data of an enabled connectable set by data that is
too long fails, but the data that was being advertised is gone. -/
theorem C20_rejected_data_violated :
    ∃ s s' a a', Reachable Config.default s ∧ mapFind s.extAdv 0 = some a ∧ a.enable = true ∧
      a.data = [1, 2, 3] ∧
      step Config.default s (.cmd (.setExtAdvertisingData 0 .completeAdvertisement (List.replicate 247 0))) =
        .ok s' (some .packetTooLong) [] ∧
      mapFind s'.extAdv 0 = some a' ∧ a'.enable = true ∧ a'.data = [] := by
  refine ⟨_, _, _, _, ⟨none, [.cmd (.setExtAdvertisingParameters 0 (exampleParams { connectable := true })),
    .cmd (.setExtAdvertisingData 0 .completeAdvertisement [1, 2, 3]),
    .cmd (.setExtAdvertisingEnable 0 (fun _ _ => 0) true [⟨0, 0, 0⟩])], rfl⟩, rfl, rfl, rfl, rfl, rfl, rfl, rfl⟩

set_option maxRecDepth 8000 in
/-- **C20, violated.** With the capacity of 160 bytes of one of the controller presets
an enabled scannable set loses its scan response data to a rejected command. -/
theorem C20_rejected_scan_response_violated :
    ∃ s s' a a', Reachable { Config.default with maxAdvertisingDataLength := 160 } s ∧
      mapFind s.extAdv 0 = some a ∧ a.enable = true ∧ a.scanResponse = [1, 2, 3] ∧
      step { Config.default with maxAdvertisingDataLength := 160 } s
        (.cmd (.setExtScanResponseData 0 .completeAdvertisement (List.replicate 161 0))) =
        .ok s' (some .memoryCapacityExceeded) [] ∧
      mapFind s'.extAdv 0 = some a' ∧ a'.enable = true ∧ a'.scanResponse = [] := by
  refine ⟨_, _, _, _, ⟨none, [.cmd (.setExtAdvertisingParameters 0 (exampleParams { scannable := true })),
    .cmd (.setExtScanResponseData 0 .completeAdvertisement [1, 2, 3]),
    .cmd (.setExtAdvertisingEnable 0 (fun _ _ => 0) true [⟨0, 0, 0⟩])], rfl⟩, rfl, rfl, rfl, rfl, rfl, rfl, rfl⟩

/-! ## The hypotheses are met -/

/-- Fragments assembled into advertised data. -/
example : ∃ s g s', runHist Config.default
    [.cmd (.setExtAdvertisingParameters 5 (exampleParams {})),
     .cmd (.setExtAdvertisingData 5 .firstFragment [1, 2]),
     .cmd (.setExtAdvertisingData 5 .intermediateFragment [3]),
     .cmd (.setExtAdvertisingEnable 0 (fun _ _ => 0) true [⟨5, 0, 0⟩]),
     .cmd (.setExtAdvertisingData 5 .lastFragment [4]),
     .cmd (.setExtAdvertisingEnable 7 (fun _ _ => 0) true [⟨5, 0, 0⟩])] (initial none) {} = some (s, g) ∧
    assembled (g.data 5) = [1, 2, 3, 4] ∧ incomplete (g.data 5) = false ∧
    step Config.default s (.env (.tick 7)) = .ok s' none
      [.extendedPdu 5 ⟨Config.default.publicAddress, .publicDevice⟩ ⟨0, .publicDevice⟩ false false false 0 0 [1, 2, 3, 4]] :=
  ⟨_, _, _, rfl, rfl, rfl, rfl⟩

/-- A rejected fragment. -/
example : ∃ s s', run Config.default [.cmd (.setExtAdvertisingParameters 5 (exampleParams {}))]
      (initial none) = some s ∧
    step Config.default s (.cmd (.setExtAdvertisingData 5 .firstFragment [])) =
      .ok s' (some .invalidHciCommandParameters) [] := ⟨_, _, rfl, rfl⟩

/-- Legacy operations that parse. -/
example : (Op.cmd (.setAdvertisingData [1, 2, 3])).parsed := by simp [Op.parsed]

end Verif.Le
