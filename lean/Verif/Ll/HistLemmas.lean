import Verif.Ll.InitLemmas
/-!
# The scanner's history and own address: helper lemmas (C50, C51)
-/

namespace Verif.Ll
open Verif.Le

theorem remember_mono (s : State) (p : Packet) {q : Packet} (h : q ∈ s.history) :
    q ∈ (remember s p).history := by
  unfold remember
  split
  · exact h
  · exact List.mem_cons_of_mem _ h

theorem remember_self (s : State) (p : Packet) (h : s.le.scanner.filterDuplicates ≠ .disabled) :
    p ∈ (remember s p).history := by
  unfold remember
  split
  · rename_i hc
    simp only [Bool.or_eq_true, beq_iff_eq, List.contains_iff_mem] at hc
    rcases hc with hc | hc
    · exact absurd hc h
    · exact hc
  · exact List.mem_cons_self ..

theorem scanRequest_history {cfg : Config} {rnd : Irk → Address} {s : State} {adv r : AddressWithType}
    {sc fr : Bool} {req : ScanRequest} {x : State × List Out}
    (h : scanRequest cfg rnd s adv r sc fr req = .ok x) : x.1.history = s.history := by
  obtain ⟨⟨l, q, hf⟩, -⟩ := scanRequest_frame h
  rw [hf]

theorem scanLegacy_history {ah : Hash} {cfg : Config} {rnd : Irk → Address} {now : Nat} {s : State}
    {p : LegacyPdu} {x : State × List Out} (h : scanLegacy ah cfg rnd now s p = .ok x) :
    (∀ q ∈ s.history, q ∈ x.1.history) ∧
    (reportsLegacy ah cfg s p = true → s.le.scanner.filterDuplicates ≠ .disabled →
      .legacyAdv p ∈ x.1.history) := by
  simp only [scanLegacy] at h
  split at h
  · rename_i h1; cases h; exact ⟨fun q hq => hq, fun hr => by simp [reportsLegacy, h1] at hr⟩
  rw [scanAccepts_update] at h
  split at h
  · rename_i h1; cases h; exact ⟨fun q hq => hq, fun hr => by simp [reportsLegacy, h1] at hr⟩
  obtain ⟨y, hy, hx⟩ := Res.bind_eq_ok h
  cases hx
  simp only [scanRequest_history hy]
  obtain ⟨l, hl⟩ := resolveUpdate_frame ah s.le p.adv
  refine ⟨fun q hq => remember_mono _ _ hq, fun _ hd => remember_self _ _ ?_⟩
  simp only [hl]; exact hd

theorem scanExtended_history {ah : Hash} {cfg : Config} {rnd : Irk → Address} {now : Nat} {s : State}
    {p : ExtPdu} {x : State × List Out} (h : scanExtended ah cfg rnd now s p = .ok x) :
    (∀ q ∈ s.history, q ∈ x.1.history) ∧
    (reportsExtended ah cfg s p = true → s.le.scanner.filterDuplicates ≠ .disabled →
      .extAdv p ∈ x.1.history) := by
  simp only [scanExtended] at h
  split at h
  · rename_i h1; cases h; exact ⟨fun q hq => hq, fun hr => by simp [reportsExtended, h1] at hr⟩
  split at h
  · rename_i h1; cases h; exact ⟨fun q hq => hq, fun hr => by simp [reportsExtended, h1] at hr⟩
  split at h
  · rename_i h1; cases h; exact ⟨fun q hq => hq, fun hr => by simp [reportsExtended, h1] at hr⟩
  rw [scanAccepts_update] at h
  split at h
  · rename_i h1; cases h; exact ⟨fun q hq => hq, fun hr => by simp [reportsExtended, h1] at hr⟩
  obtain ⟨y, hy, hx⟩ := Res.bind_eq_ok h
  cases hx
  simp only [scanRequest_history hy]
  obtain ⟨l, hl⟩ := resolveUpdate_frame ah s.le p.adv
  refine ⟨fun q hq => remember_mono _ _ hq, fun _ hd => remember_self _ _ ?_⟩
  simp only [hl]; exact hd

/-- The scanner is not affected by received packets. -/
theorem receive_scanner {ah : Hash} {cfg : Config} {rnd : Irk → Address} {now : Nat} {s : State}
    {p : Packet} {x : State × List Out} (h : receive ah cfg rnd now s p = .ok x) :
    x.1.le.scanner = s.le.scanner ∧ x.1.le.randomAddress = s.le.randomAddress := by
  by_cases hp : ∃ q, p = .periodic q
  · obtain ⟨q, rfl⟩ := hp
    obtain ⟨r, hr⟩ := resolveUpdate_frame ah s.le q.adv
    simp only [receive, periodicPdu] at h
    simp only [hr] at h
    repeat' split at h
    all_goals first | (cases h; exact ⟨rfl, rfl⟩) | cases h
  · obtain ⟨_, _, _, _, hf⟩ := receive_frame (fun q hq => hp ⟨q, hq⟩) h
    rw [hf]; exact ⟨rfl, rfl⟩

/-- Received packets never shorten the history. -/
theorem receive_history {ah : Hash} {cfg : Config} {rnd : Irk → Address} {now : Nat} {s : State}
    {p : Packet} {x : State × List Out} (h : receive ah cfg rnd now s p = .ok x) :
    ∀ q ∈ s.history, q ∈ x.1.history := by
  cases p with
  | legacyAdv p =>
    obtain ⟨u, v, hu, hv, rfl⟩ := receive_legacyAdv h
    obtain ⟨h1, -⟩ := scanLegacy_history hu
    rcases connectLegacy_frame hv with ⟨l', rfl⟩ | ⟨l', own, -, -, -, rfl⟩ <;> exact h1
  | extAdv p =>
    obtain ⟨u, v, hu, hv, rfl⟩ := receive_extAdv h
    obtain ⟨h1, -⟩ := scanExtended_history hu
    rcases connectExtended_frame hv with ⟨l', rfl⟩ | ⟨l', own, -, -, -, rfl⟩ <;> exact h1
  | periodic q =>
    simp only [receive, periodicPdu] at h
    repeat' split at h
    all_goals first | (cases h; exact fun q hq => hq) | cases h
  | connect init adv q =>
    simp only [receive, incomingConnect] at h
    obtain ⟨⟨b, s1, o1⟩, hl, hx⟩ := Res.bind_eq_ok h
    rcases legacyConnect_cases hl with ⟨hb, ho, ⟨r, hs⟩, -⟩ | ⟨hb, -, -, -, -, z, hz, hx'⟩
    · simp only at hb ho hs
      subst hb ho hs
      simp only [Bool.false_eq_true, if_false] at hx
      rcases extConnectAll_cases _ hx with ⟨g1, ⟨r', g2⟩, -⟩ | ⟨k, a, s2, -, -, ⟨⟨r', hs2⟩, -⟩, z, hz, rfl⟩
      · rw [g2]; exact fun q hq => hq
      · obtain ⟨last, -, -, -, -, -, -, h5, -⟩ := handleConnection_cases hz
        rw [h5, hs2]; exact fun q hq => hq
    · simp only at hb hx'
      subst hb
      simp only [if_true] at hx
      cases hx
      cases hx'
      obtain ⟨last, -, -, -, -, -, -, h5, -⟩ := handleConnection_cases hz
      simp only [h5]; exact fun q hq => hq
  | connectComplete init adv q =>
    simp only [receive, incomingConnectComplete] at h
    split at h
    · cases h; exact fun q hq => hq
    obtain ⟨z, hz, hx⟩ := Res.bind_eq_ok h
    cases hx
    obtain ⟨last, -, -, -, -, -, -, h5, -⟩ := handleConnection_cases hz
    simp only [h5]; exact fun q hq => hq
  | scan sc adv => cases h; exact fun q hq => hq
  | scanResponse adv a d =>
    cases h
    simp only [scanResponse]
    split
    · exact fun q hq => hq
    split
    · exact fun q hq => hq
    · exact fun q hq => remember_mono _ _ hq
  | link src dst b =>
    simp only [receive, incomingLink] at h
    split at h
    · cases h; exact fun q hq => hq
    split at h
    · cases h; exact fun q hq => hq
    · split at h
      · cases h
      · rename_i hr
        obtain ⟨h0, rfl⟩ := removeConnection_cases hr
        cases h
        exact fun q hq => hq
    · cases h; exact fun q hq => hq

/-- Commands that write the scanner. -/
def writesScanner : Cmd → Bool
  | .setScanParameters .. | .setScanEnable .. | .setExtendedScanParameters .. | .setExtendedScanEnable .. => true
  | _ => false

theorem runCmd_scanner {cfg : Config} {s s' : Le.State} {c : Cmd} {e : Status}
    (hc : writesScanner c = false) (h : runCmd cfg s c = .ret s' e) : s'.scanner = s.scanner := by
  cases c
  case setExtAdvertisingEnable =>
    obtain ⟨m, r, x, rfl⟩ := extEnable_frame (runCmd_extEnable h); rfl
  all_goals first | (cases hc; done) | skip
  all_goals
    obtain ⟨rfl, -⟩ := runCmd_ret_of h
    unfold_handlers
    repeat' split
    all_goals first | rfl | (simp_all; done)

/-- The host starts scanning. -/
def StartsScan : Op → Prop
  | .cmd (.setScanEnable enable _) => enable = true
  | .cmd (.setExtendedScanEnable _ enable _ _ _) => enable = true
  | _ => False

/-- The packet will not be reported (again). -/
def Known (s : State) (p : Packet) (fd : FilterDuplicates) : Prop :=
  s.le.scanner.enable = false ∨
  s.le.scanner.filterDuplicates = fd ∧ fd ≠ .disabled ∧ p ∈ s.history

theorem Known.of_scanner {s s' : State} {p : Packet} {fd : FilterDuplicates} (h : Known s p fd)
    (h1 : s'.le.scanner = s.le.scanner) (h2 : ∀ q ∈ s.history, q ∈ s'.history) : Known s' p fd := by
  rcases h with h | ⟨h3, h4, h5⟩
  · exact .inl (by rw [h1]; exact h)
  · exact .inr ⟨by rw [h1]; exact h3, h4, h2 _ h5⟩

theorem command_scan {cfg : Config} {s : State} {c : Cmd} {x : State × Status}
    (h : command cfg s c = .ok x) (hc : ¬ StartsScan (.cmd c)) :
    x.1.le.scanner.enable = false ∨
    (x.1.le.scanner = s.le.scanner ∧ x.1.history = s.history) := by
  simp only [command] at h
  split at h
  · cases h
  rename_i le e hr
  by_cases hw : writesScanner c = false
  · have hs := runCmd_scanner hw hr
    have hn : clearsScan c = false := by cases c <;> first | rfl | cases hw
    simp only [hn, Bool.false_and, Bool.false_eq_true, if_false] at h
    cases h
    exact .inr ⟨hs, rfl⟩
  · cases c
    case setScanParameters t i w own pol =>
      obtain ⟨rfl, -⟩ := runCmd_ret_of hr
      simp only [clearsScan, Bool.false_and, Bool.false_eq_true, if_false] at h
      cases h
      simp only [setScanParameters, withLegacy, checked, checkedThen]
      split
      · exact .inr ⟨rfl, trivial⟩
      split
      · rename_i hf
        rw [firstError_iff (by simp)] at hf
        exact .inl (hf _ (List.mem_cons_self ..))
      · exact .inr ⟨rfl, trivial⟩
    case setExtendedScanParameters own pol phys ps =>
      obtain ⟨rfl, -⟩ := runCmd_ret_of hr
      simp only [clearsScan, Bool.false_and, Bool.false_eq_true, if_false] at h
      cases h
      simp only [setExtendedScanParameters, withExtended, checked, checkedThen]
      split
      · exact .inr ⟨rfl, trivial⟩
      split
      · rename_i hf
        left
        have hne : ∀ e ∈ ([(s.le.scanner.enable, Status.commandDisallowed),
            (phys.toNat &&& (0xff - cfg.supportedPhys) != 0, .unsupportedFeatureOrParameterValue),
            (popcount phys.toNat != ps.length, .invalidHciCommandParameters),
            (phys.toNat == 0, .invalidHciCommandParameters)] ++
            ps.flatMap (fun p =>
              [(decide (p.interval < 0x4 ∨ p.window < 0x4), .invalidHciCommandParameters),
               (decide (p.window > p.interval), .invalidHciCommandParameters)])), e.2 ≠ Status.success := by
          intro e he
          simp only [List.mem_append, List.mem_flatMap, List.mem_cons, List.not_mem_nil, or_false] at he
          rcases he with (rfl | rfl | rfl | rfl) | ⟨p, -, rfl | rfl⟩ <;> exact nofun
        rw [firstError_iff hne] at hf
        exact hf _ (List.mem_append_left _ (List.mem_cons_self ..))
      · exact .inr ⟨rfl, trivial⟩
    case setScanEnable en fd =>
      obtain ⟨rfl, rfl⟩ := runCmd_ret_of hr
      have hen : en = false := by cases en; rfl; exact absurd rfl hc
      subst hen
      simp only [setScanEnable, withLegacy] at h
      by_cases hx : s.le.extendedInUse = true
      · rw [if_pos hx] at h; cases h; exact .inr ⟨rfl, rfl⟩
      · rw [if_neg hx] at h; cases h; exact .inl rfl
    case setExtendedScanEnable n en fd d pr =>
      obtain ⟨rfl, rfl⟩ := runCmd_ret_of hr
      have hen : en = false := by cases en; rfl; exact absurd rfl hc
      subst hen
      simp only [setExtendedScanEnable, withExtended] at h
      by_cases hx : s.le.legacyInUse = true
      · rw [if_pos hx] at h; cases h; exact .inr ⟨rfl, rfl⟩
      · rw [if_neg hx] at h; cases h; exact .inl rfl
    all_goals exact absurd rfl hw

theorem step_known {ah : Hash} {cfg : Config} {s : State} {o : Op} {x : State × Obs} {p : Packet}
    {fd : FilterDuplicates} (h : step ah cfg s o = .ok x) (ho : ¬ StartsScan o)
    (ht : fd = .resetEachPeriod → ∀ now, o ≠ .tick now) (hk : Known s p fd) : Known x.1 p fd := by
  cases o with
  | cmd c =>
    simp only [step] at h
    obtain ⟨y, hy, h⟩ := Res.bind_eq_ok h
    cases h
    rcases command_scan hy ho with h1 | ⟨h1, h2⟩
    · exact .inl h1
    · exact hk.of_scanner h1 (by simp only [h2]; exact fun q hq => hq)
  | receive rnd now q =>
    simp only [step] at h
    obtain ⟨y, hy, h⟩ := Res.bind_eq_ok h
    cases h
    exact hk.of_scanner (receive_scanner hy).1 (receive_history hy)
  | tick now =>
    have hfd : fd ≠ .resetEachPeriod := fun hf => ht hf now rfl
    simp only [step] at h
    obtain ⟨y, hy, h⟩ := Res.bind_eq_ok h
    cases h
    simp only [tick] at hy
    split at hy
    · cases hy
    · rename_i le out ha
      cases hy
      have hsc : le.scanner = s.le.scanner := by
        simp only [advertising] at ha
        split at ha
        · cases ha
        · cases ha; rfl
      have hb : ∀ b : Bool, ¬ b = false → b = true := by decide
      unfold Known at hk ⊢
      simp only [scanTimers, scanning, hsc]
      by_cases he : s.le.scanner.enable = false
      · rw [if_pos he]
        left; simp only [hsc]; exact he
      · obtain ⟨h3, h4, h5⟩ := hk.resolve_left he
        rw [if_neg he]
        generalize hstop : (Option.any (fun t => decide (now ≥ t)) s.le.scanner.timeout && s.le.scanner.periodicalTimeout.isNone) = stop
        cases stop
        · right
          have hr : (s.le.scanner.filterDuplicates == .resetEachPeriod) = false := by
            rw [h3]; cases fd <;> first | rfl | exact absurd rfl hfd
          simp only [Bool.false_eq_true, if_false, hr, Bool.and_false, Bool.false_or]
          refine ⟨?_, h4, ?_⟩
          · repeat' split
            all_goals exact h3
          · simp only [he]; exact h5
        · left
          simp only [if_true]
          repeat' split
          all_goals rfl
  | sendAcl a b c d =>
    simp only [step, handleAcl] at h
    obtain ⟨y, hy, h⟩ := Res.bind_eq_ok h
    cases h
    split at hy
    · cases hy
    split at hy <;> (cases hy; exact hk)
  | disconnect a b c =>
    simp only [step, disconnect] at h
    obtain ⟨y, hy, h⟩ := Res.bind_eq_ok h
    cases h
    split at hy
    · cases hy; exact hk
    split at hy
    · cases hy
    · rename_i hr
      obtain ⟨-, rfl⟩ := removeConnection_cases hr
      cases hy
      exact hk
  | reset => cases h; exact .inl rfl

end Verif.Ll
