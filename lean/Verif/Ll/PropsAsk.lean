import Verif.Ll.AskRead
/-!
# Scanning and initiating as the host asked (C109)

The notes of the host (`Verif.Ll.SpecAsk`) are made of the commands the controller
accepted and the events and packets it gave. For every history of commands, packets and
time, they foretell which advertising PDUs are reported, which are answered with a scan
request and which with a connect request.
-/

namespace Verif.Ll
open Verif.Le

/-- Whatever happens, the host has notes. -/
theorem C109_notes {ah : Hash} {cfg : Config} {a : Option Address} {ops : List Op} {s : State} {obs : List Obs}
    (h : run ah cfg ops (initial a) = .ok (s, obs)) : ∃ n, runAsk ah cfg ops (initial a) (.initial a) = .ok (s, n) :=
  runAsk_exists _ h

/-- **C109 (legacy PDUs).** A legacy advertising PDU is reported exactly if the host's
scan goes on, the filter policy it chose lets the device behind the PDU through, and the
PDU is not one it has heard and does not want to hear again. In full, the host must also
have asked for scanning on the LE 1M PHY, and the scan must not be between the end of its
duration and the end of its period: see `C109_coded_violated`, `C109_period_violated`. -/
theorem C109_legacy_partial {ah : Hash} {cfg : Config} {a : Option Address} {ops : List Op} {s : State} {n : Ask}
    {rnd : Irk → Address} {now : Nat} {p : LegacyPdu} {x : State × Obs}
    (hr : runAsk ah cfg ops (initial a) (.initial a) = .ok (s, n)) (h : step ah cfg s (.receive rnd now (.legacyAdv p)) = .ok x) :
    told x.2.out = true ↔
      ∃ scan, n.scan = some scan ∧ ¬ scan.again (.legacyAdv p) ∧
        ∃ r, n.identity ah p.adv r ∧ n.allows ah cfg p.type.directed r p.target := by
  have hT := tied_run (tied_initial a) hr
  rw [told_iff, C49_legacy (s' := x.1) (o := x.2) h]
  simp only [identifies_iff hT.1, allows_iff hT]
  have h6 := hT.2.6
  cases hn : n.scan with
  | none =>
    rw [hn] at h6
    refine ⟨fun h => absurd (h.1.symm.trans h6) nofun, ?_⟩
    rintro ⟨r, hr, -⟩; cases hr
  | some scan =>
    rw [hn] at h6
    rw [suppressed_iff h6]
    refine ⟨fun h => ⟨scan, rfl, h.2.2.2, h.2.2.1⟩, ?_⟩
    rintro ⟨r, hr, h1, h2⟩
    cases hr
    refine ⟨h6.1, ?_, h2, h1⟩
    rw [h6.2, h6.3]
    cases scan.extended <;> simp

/-- **C109 (extended PDUs).** An extended advertising PDU is reported exactly if the
host's scan goes on, was started by the extended command on the PHYs of the PDU, the
filter policy lets the device through and the PDU is not a duplicate. In full, the scan
must not be between the end of its duration and the end of its period: see
`C109_period_violated`. -/
theorem C109_extended_partial {ah : Hash} {cfg : Config} {a : Option Address} {ops : List Op} {s : State} {n : Ask}
    {rnd : Irk → Address} {now : Nat} {p : ExtPdu} {x : State × Obs}
    (hr : runAsk ah cfg ops (initial a) (.initial a) = .ok (s, n)) (h : step ah cfg s (.receive rnd now (.extAdv p)) = .ok x) :
    told x.2.out = true ↔
      ∃ scan, n.scan = some scan ∧ scan.extended = true ∧ n.tuned cfg p ∧ ¬ scan.again (.extAdv p) ∧
        ∃ r, n.identity ah p.adv r ∧ n.allows ah cfg p.directed r p.target := by
  have hT := tied_run (tied_initial a) hr
  rw [told_iff, C49_extended (s' := x.1) (o := x.2) h]
  simp only [identifies_iff hT.1, allows_iff hT, tuned_iff hT.2]
  have h6 := hT.2.6
  cases hn : n.scan with
  | none =>
    rw [hn] at h6
    refine ⟨fun h => absurd (h.1.symm.trans h6) nofun, ?_⟩
    rintro ⟨r, hr, -⟩; cases hr
  | some scan =>
    rw [hn] at h6
    rw [suppressed_iff h6, h6.3]
    refine ⟨fun h => ⟨scan, rfl, h.2.1, h.2.2.1, h.2.2.2.2, h.2.2.2.1⟩, ?_⟩
    rintro ⟨r, hr, h1, h2, h3, h4⟩
    cases hr
    exact ⟨h6.1, h1, h2, h4, h3⟩

/-- **C109 (scan requests for legacy PDUs).** A legacy PDU is answered with a scan
request exactly if it can be scanned, was reported, the host asked for active scanning,
and no answer of the advertiser is awaited. There is at most one request. It goes to the
advertiser, from the address the host chose. In full, the active scanning must have been
asked for on the LE 1M PHY, see `C109_passive_violated`, and parameters for the LE 2M PHY
make no difference, see `C23_2m_shifts_violated`. -/
theorem C109_request_legacy_partial {ah : Hash} {cfg : Config} {a : Option Address} {ops : List Op} {s : State} {n : Ask}
    {rnd : Irk → Address} {now : Nat} {p : LegacyPdu} {x : State × Obs}
    (hr : runAsk ah cfg ops (initial a) (.initial a) = .ok (s, n)) (hs : ∀ o ∈ ops, shifts o = false)
    (h : step ah cfg s (.receive rnd now (.legacyAdv p)) = .ok x) :
    (scanRequestsOf x.2.out ≠ [] ↔
      p.type.scannable = true ∧ told x.2.out = true ∧ n.active ∧ ∀ scan, n.scan = some scan → scan.awaits p.adv = none) ∧
    (scanRequestsOf x.2.out).length ≤ 1 ∧
    ∀ own adv, (own, adv) ∈ scanRequestsOf x.2.out →
      adv = p.adv ∧ ∃ r, n.identity ah p.adv r ∧ n.ownFor cfg rnd r n.own own := by
  have hT := tied_run (tied_initial a) hr
  have hC : CodedKind s n := coded_run (n := .initial a) nofun hs hr
  have h6 := hT.2.6
  cases hn : n.scan with
  | none =>
    rw [hn] at h6
    have h0 := no_scan_legacy h h6
    have ht : ¬ told x.2.out = true := by
      rw [C109_legacy_partial hr h, hn]
      rintro ⟨r, hr, -⟩; cases hr
    rw [h0]
    exact ⟨⟨fun h => absurd rfl h, fun h => absurd h.2.1 ht⟩, Nat.zero_le _, nofun⟩
  | some scan =>
    rw [hn] at h6
    have hm : s.le.legacyInUse = true ∨ s.le.extendedInUse = true := by
      rw [h6.2, h6.3]
      cases scan.extended <;> simp
    obtain ⟨g1, g2, g3⟩ := C51_legacy (s' := x.1) (o := x.2) h hm
    simp only [identifies_iff hT.1, hT.2.2, ownFor_iff hT.1] at g3
    refine ⟨?_, g2, g3⟩
    rw [g1, active_iff hT.2 hC, told_iff, awaits_iff h6]
    simp

/-- **C109 (scan requests for extended PDUs).** As for legacy PDUs; the active scanning
may have been asked for on another PHY than that of the PDU. -/
theorem C109_request_extended_partial {ah : Hash} {cfg : Config} {a : Option Address} {ops : List Op} {s : State} {n : Ask}
    {rnd : Irk → Address} {now : Nat} {p : ExtPdu} {x : State × Obs}
    (hr : runAsk ah cfg ops (initial a) (.initial a) = .ok (s, n)) (hs : ∀ o ∈ ops, shifts o = false)
    (h : step ah cfg s (.receive rnd now (.extAdv p)) = .ok x) :
    (scanRequestsOf x.2.out ≠ [] ↔
      p.scannable = true ∧ told x.2.out = true ∧ n.active ∧ ∀ scan, n.scan = some scan → scan.awaits p.adv = none) ∧
    (scanRequestsOf x.2.out).length ≤ 1 ∧
    ∀ own adv, (own, adv) ∈ scanRequestsOf x.2.out →
      adv = p.adv ∧ ∃ r, n.identity ah p.adv r ∧ n.ownFor cfg rnd r n.own own := by
  have hT := tied_run (tied_initial a) hr
  have hC : CodedKind s n := coded_run (n := .initial a) nofun hs hr
  have h6 := hT.2.6
  obtain ⟨g1, g2, g3⟩ := C51_extended (s' := x.1) (o := x.2) h
  simp only [identifies_iff hT.1, hT.2.2, ownFor_iff hT.1] at g3
  refine ⟨?_, g2, g3⟩
  rw [g1, active_iff hT.2 hC, ← told_iff]
  refine and_congr_right fun _ => and_congr_right fun ht => and_congr_right fun _ => ?_
  obtain ⟨scan, hn, -⟩ := (C109_extended_partial hr h).1 ht
  rw [hn] at h6 ⊢
  rw [awaits_iff h6]
  simp

/-- **C109 (scan responses).** A scan response is reported exactly if the host's scan
goes on, the advertiser was sent a scan request less than 200 ms ago and has not answered
since, and the response is not a duplicate. In full, the response must be for this
controller: see `C52_other_scanner_violated`. -/
theorem C109_response_partial {ah : Hash} {cfg : Config} {a : Option Address} {ops : List Op} {s : State} {n : Ask}
    {rnd : Irk → Address} {now : Nat} {adv : AddressWithType} {sc : Address} {d : List UInt8} {x : State × Obs}
    (hr : runAsk ah cfg ops (initial a) (.initial a) = .ok (s, n)) (h : step ah cfg s (.receive rnd now (.scanResponse adv sc d)) = .ok x) :
    told x.2.out = true ↔
      ∃ scan, n.scan = some scan ∧ scan.awaits adv ≠ none ∧ ¬ scan.again (.scanResponse adv sc d) := by
  have hT := tied_run (tied_initial a) hr
  have h6 := hT.2.6
  simp only [step] at h
  obtain ⟨y, hy, h⟩ := Res.bind_eq_ok h
  cases h
  obtain ⟨hl, hi, g1, g2, g3, rep, hrep, ht, hpend, hh⟩ := receive_response hy
  show told y.2 = true ↔ _
  rw [ht, hrep]
  cases hn : n.scan with
  | none =>
    rw [hn] at h6
    have h6 : s.le.scanner.enable = false := h6
    rw [h6]
    simp
  | some scan =>
    rw [hn] at h6
    have hm : (s.le.legacyInUse || s.le.extendedInUse) = true := by
      rw [h6.2, h6.3]; cases scan.extended <;> rfl
    rw [hm, h6.1]
    simp only [Bool.true_and, Bool.and_true, Bool.and_eq_true]
    rw [notDuplicate_iff, suppressed_iff h6, Option.isSome_iff_ne_none]
    rw [ne_eq, awaits_iff h6 adv]
    simp

/-- **C109 (connect requests for legacy PDUs).** A legacy PDU is answered with a connect
request exactly if the host asked for a connection with the device behind it, the PDU is
connectable, and no connect request was sent for this connection. There is at most one
request. It goes to the advertiser, from the address the host chose, with the parameters
the host gave for the LE 1M PHY. In full, the connection must have been asked for on the
PHY of the PDU: see `C53_parameters_violated`. -/
theorem C109_connect_legacy_partial {ah : Hash} {cfg : Config} {a : Option Address} {ops : List Op} {s : State} {n : Ask}
    {rnd : Irk → Address} {now : Nat} {p : LegacyPdu} {x : State × Obs}
    (hr : runAsk ah cfg ops (initial a) (.initial a) = .ok (s, n)) (h : step ah cfg s (.receive rnd now (.legacyAdv p)) = .ok x) :
    (requestsOf x.2.out ≠ [] ↔
      p.type.connectable = true ∧ ∃ c, n.call = some c ∧ c.asked = false ∧
        ∃ r, n.identity ah p.adv r ∧ n.wants ah cfg c p.type.directed r p.target) ∧
    (requestsOf x.2.out).length ≤ 1 ∧
    ∀ own adv q, (own, adv, q) ∈ requestsOf x.2.out →
      adv = p.adv ∧ ∃ c, n.call = some c ∧
        (∀ ps, c.params = some ps → q = ⟨ps.intervalMax, ps.maxLatency, ps.supervisionTimeout⟩) ∧
        ∃ r, n.identity ah p.adv r ∧ n.ownFor cfg rnd r c.own own := by
  have hT := tied_run (tied_initial a) hr
  have h3 := hT.3
  unfold TiedCall at h3
  obtain ⟨g1, g2, g3⟩ := C53_legacy_partial (s' := x.1) (o := x.2) h
  cases hn : n.call with
  | none =>
    rw [hn] at h3
    have h3 : s.le.initiator.enable = false := h3
    have h0 : requestsOf x.2.out = [] := by
      refine Classical.byContradiction fun hc => ?_
      exact absurd ((g1.1 hc).1.symm.trans h3) nofun
    rw [h0]
    exact ⟨⟨fun h => absurd rfl h, fun ⟨_, c, hc, _⟩ => by cases hc⟩, Nat.zero_le _, nofun⟩
  | some c =>
    rw [hn] at h3
    have h3 : CallOn s.le c := h3
    refine ⟨?_, g2, ?_⟩
    · rw [g1]
      simp only [identifies_iff hT.1, wants_iff hT.1 h3]
      have hp : s.le.initiator.pendingConnectRequest = none ↔ c.asked = false := by
        rw [← h3.8]; simp
      rw [hp]
      refine ⟨fun ⟨k1, k2, k3, k4⟩ => ⟨k2, c, rfl, k3, k4⟩, ?_⟩
      rintro ⟨k1, c', hc, k2, k3⟩
      cases hc
      exact ⟨h3.1, k1, k2, k3⟩
    · intro own adv q hq
      obtain ⟨k1, k2, r, k3, k4⟩ := g3 own adv q hq
      refine ⟨k1, c, rfl, ?_, r, (identifies_iff hT.1 _ _).1 k3, ?_⟩
      · intro ps hps
        rw [k2, h3.7 ps hps]
      · rw [← h3.6]; exact (ownFor_iff hT.1 _ _ _).1 k4

/-- **C109 (connect requests for extended PDUs).** As for legacy PDUs; the host must have
used the extended command. -/
theorem C109_connect_extended_partial {ah : Hash} {cfg : Config} {a : Option Address} {ops : List Op} {s : State} {n : Ask}
    {rnd : Irk → Address} {now : Nat} {p : ExtPdu} {x : State × Obs}
    (hr : runAsk ah cfg ops (initial a) (.initial a) = .ok (s, n)) (h : step ah cfg s (.receive rnd now (.extAdv p)) = .ok x) :
    (requestsOf x.2.out ≠ [] ↔
      p.connectable = true ∧ ∃ c, n.call = some c ∧ c.extended = true ∧ c.asked = false ∧
        ∃ r, n.identity ah p.adv r ∧ n.wants ah cfg c p.directed r p.target) ∧
    (requestsOf x.2.out).length ≤ 1 ∧
    ∀ own adv q, (own, adv, q) ∈ requestsOf x.2.out →
      adv = p.adv ∧ ∃ c, n.call = some c ∧
        (∀ ps, c.params = some ps → q = ⟨ps.intervalMax, ps.maxLatency, ps.supervisionTimeout⟩) ∧
        ∃ r, n.identity ah p.adv r ∧ n.ownFor cfg rnd r c.own own := by
  have hT := tied_run (tied_initial a) hr
  have h3 := hT.3
  unfold TiedCall at h3
  obtain ⟨g1, g2, g3⟩ := C53_extended_partial (s' := x.1) (o := x.2) h
  cases hn : n.call with
  | none =>
    rw [hn] at h3
    have h3 : s.le.initiator.enable = false := h3
    have h0 : requestsOf x.2.out = [] := by
      refine Classical.byContradiction fun hc => ?_
      exact absurd ((g1.1 hc).1.symm.trans h3) nofun
    rw [h0]
    exact ⟨⟨fun h => absurd rfl h, fun ⟨_, c, hc, _⟩ => by cases hc⟩, Nat.zero_le _, nofun⟩
  | some c =>
    rw [hn] at h3
    have h3 : CallOn s.le c := h3
    refine ⟨?_, g2, ?_⟩
    · rw [g1]
      simp only [identifies_iff hT.1, wants_iff hT.1 h3]
      have hp : s.le.initiator.pendingConnectRequest = none ↔ c.asked = false := by
        rw [← h3.8]; simp
      rw [hp, h3.3]
      refine ⟨fun ⟨k1, k2, k3, k4, k5⟩ => ⟨k3, c, rfl, k2, k4, k5⟩, ?_⟩
      rintro ⟨k1, c', hc, k2, k3, k4⟩
      cases hc
      exact ⟨h3.1, k2, k1, k3, k4⟩
    · intro own adv q hq
      obtain ⟨k1, k2, r, k3, k4⟩ := g3 own adv q hq
      refine ⟨k1, c, rfl, ?_, r, (identifies_iff hT.1 _ _).1 k3, ?_⟩
      · intro ps hps
        rw [k2, h3.7 ps hps]
      · rw [← h3.6]; exact (ownFor_iff hT.1 _ _ _).1 k4

/-! ### Where the controller does not do what the host asked -/

/-- The report of `scannablePdu` in an extended scan. -/
def scannableReport : Out := .extReport ⟨false, true, false, false, true, ⟨0xA, .publicDevice⟩, .le1m, .noPackets, 255, 0, none, true, [1]⟩

/-- **Counterexample.** The host asks for scanning 10 ms in every 1.28 s. A PDU that
comes in 30 ms after the start, outside the duration, is reported. -/
theorem C109_period_violated :
    outputs [.cmd (.setExtendedScanParameters .pub .acceptAll 1 [⟨.passive, 0x10, 0x10⟩]),
      .cmd (.setExtendedScanEnable 0 true .disabled 1 1), .tick 20000,
      .receive (fun _ => 0) 30000 (.legacyAdv scannablePdu)] = [[], [], [], [scannableReport]] := by
  decide +kernel

/-- **Counterexample.** The host asks for scanning on the LE Coded PHY only. A legacy
PDU, which is always sent on the LE 1M PHY, is reported. -/
theorem C109_coded_violated :
    outputs [.cmd (.setExtendedScanParameters .pub .acceptAll 4 [⟨.passive, 0x10, 0x10⟩]),
      .cmd (.setExtendedScanEnable 0 true .disabled 0 0),
      .receive (fun _ => 0) 0 (.legacyAdv scannablePdu)] = [[], [], [scannableReport]] := by
  decide +kernel

/-- **Counterexample.** The host asks for passive scanning on the LE 1M PHY and for active
scanning on the LE Coded PHY. A legacy PDU, on the LE 1M PHY, is answered with a scan
request. -/
theorem C109_passive_violated :
    outputs [.cmd (.setExtendedScanParameters .pub .acceptAll 5 [⟨.passive, 0x10, 0x10⟩, ⟨.active, 0x10, 0x10⟩]),
      .cmd (.setExtendedScanEnable 0 true .disabled 0 0),
      .receive (fun _ => 0) 0 (.legacyAdv scannablePdu)] =
    [[], [], [scannableReport, .send (.scan ⟨Config.default.publicAddress, .publicDevice⟩ ⟨0xA, .publicDevice⟩)]] := by
  decide +kernel

/-! ### Non-vacuity -/

/-- Run some operations and read the notes. -/
def noted {α : Type} (f : Ask → α) (ops : List Op) : Option α :=
  match runAsk (fun _ _ => 0) Config.default ops (initial none) (.initial none) with
  | .ok (_, n) => some (f n)
  | _ => none

/-- An active scan with the filter accept list and duplicates filtered, and a PDU of a
device on the list and one of another: the notes say that the first one was heard, and
is awaited until 200 ms have passed. -/
def askOps : List Op :=
  [.cmd (.setScanParameters .active 0x10 0x10 .pub .filterAcceptListOnly), .cmd (.addFilterAccept .pub 0xA),
   .cmd (.setScanEnable true true), .receive (fun _ => 0) 5 (.legacyAdv scannablePdu),
   .receive (fun _ => 0) 6 (.legacyAdv { scannablePdu with adv := ⟨0xB, .publicDevice⟩ })]

example : noted (fun n => decide (n.le1m = some .active ∧ n.coded = none ∧ n.accept .pub 0xA = 1 ∧ n.accept .pub 0xB = 0)) askOps = some true ∧
    noted (fun n => n.scan.map fun r => decide (r.extended = false ∧ r.heard = [.legacyAdv scannablePdu])) askOps = some (some true) ∧
    noted (fun n => n.scan.map fun r => (r.awaits ⟨0xA, .publicDevice⟩, r.awaits ⟨0xB, .publicDevice⟩)) askOps = some (some (some 200005, none)) := by
  decide +kernel

/-- A scan of 10 ms is over after 10 ms, a scan without a duration is not. -/
example : noted (fun n => n.scan.isSome) [.cmd (.setExtendedScanParameters .pub .acceptAll 1 [⟨.passive, 0x10, 0x10⟩]),
      .cmd (.setExtendedScanEnable 0 true .disabled 1 0), .tick 10000] = some false ∧
    noted (fun n => n.scan.isSome) [.cmd (.setExtendedScanParameters .pub .acceptAll 1 [⟨.passive, 0x10, 0x10⟩]),
      .cmd (.setExtendedScanEnable 0 true .disabled 0 0), .tick 10000] = some true := by
  decide +kernel

/-- A connection is being created until the host hears of it. -/
example :
    let create : Op := .cmd (.createConnection someRnd .usePeerAddress advertiserA .pub ⟨0x10, 0x10, 0x18, 0x28, 0, 0x64, 0, 0⟩)
    let adv : Op := .receive someRnd 0 (.legacyAdv ⟨advertiserA, ⟨0, .publicDevice⟩, .advInd, []⟩)
    let done : Op := .receive someRnd 0 (.connectComplete centralAddress advertiserA ⟨0x28, 0, 0x64⟩)
    noted (fun n => n.call.map (·.asked)) [create] = some (some false) ∧
    noted (fun n => n.call.map (·.asked)) [create, adv] = some (some true) ∧
    noted (fun n => n.call.map (·.asked)) [create, adv, done] = some none := by
  decide +kernel

end Verif.Ll
