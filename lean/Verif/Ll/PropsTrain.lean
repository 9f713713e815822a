import Verif.Ll.TrainLemmas
import Verif.Ll.PropsAsk
/-!
# Periodic advertising as the host asked (C110)

The notes of the host (`Verif.Ll.SpecTrain`, and `Verif.Ll.SpecAsk` for the scan and the
resolving list) are made of accepted commands and events. For every history they foretell
what a packet of a periodic advertiser leads to.
-/

namespace Verif.Ll
open Verif.Le

/-- Whatever happens, the host has notes, and there is exactly one device behind the
address of a packet. -/
theorem C110_notes {ah : Hash} {cfg : Config} {a : Option Address} {ops : List Op} {s : State} {obs : List Obs}
    (h : run ah cfg ops (initial a) = .ok (s, obs)) (adv : AddressWithType) :
    ∃ n m, runAsk ah cfg ops (initial a) (.initial a) = .ok (s, n) ∧ runTrains ah cfg ops (initial a) {} = .ok (s, m) ∧
      ∃ r, n.identity ah adv r ∧ ∀ r', n.identity ah adv r' → r' = r := by
  obtain ⟨n, hn⟩ := runAsk_exists (.initial a) h
  obtain ⟨m, hm⟩ := runTrains_exists {} h
  have hT := tied_run (tied_initial a) hn
  refine ⟨n, m, hn, hm, resolved ah s.le adv, (identifies_iff hT.1 _ _).1 ((identity_iff ah s.le adv _).1 rfl), ?_⟩
  intro r' hr
  exact ((identity_iff ah s.le adv r').2 ((identifies_iff hT.1 _ _).2 hr)).symm

theorem trains_initial (a : Option Address) : TiedTrains (initial a).le {} := ⟨rfl, rfl, List.nodup_nil, rfl⟩

theorem mapFind_isSome_iff {α : Type} (l : List (Nat × α)) (k : Nat) : (mapFind l k).isSome = true ↔ k ∈ l.map (·.1) := by
  simp only [mapFind, Option.isSome_map, List.find?_isSome, decide_eq_true_eq, List.mem_map]

/-- **C110 (no scan).** Without an extended scan a packet of a periodic advertiser leads
to nothing. For synchronizations not yet established this is what is asked; for the others
see `C110_scan_violated`. -/
theorem C110_quiet {ah : Hash} {cfg : Config} {a : Option Address} {ops : List Op} {s : State} {n : Ask}
    {rnd : Irk → Address} {now : Nat} {p : PeriodicPdu} {x : State × Obs}
    (hr : runAsk ah cfg ops (initial a) (.initial a) = .ok (s, n)) (hq : ¬ n.scansExtended)
    (h : step ah cfg s (.receive rnd now (.periodic p)) = .ok x) : x.2.out = [] := by
  have hT := tied_run (tied_initial a) hr
  rw [← scansExtended_iff hT] at hq
  simp only [step, receive, periodicPdu] at h
  obtain ⟨y, hy, h⟩ := Res.bind_eq_ok h
  cases h
  by_cases h1 : s.le.scanner.enable = false
  · rw [if_pos h1] at hy; cases hy; rfl
  · rw [if_neg h1] at hy
    by_cases h2 : s.le.extendedInUse = false
    · rw [if_pos h2] at hy; cases hy; rfl
    · exact absurd ⟨by simpa using h1, by simpa using h2⟩ hq

/-- **C110 (establishment).** If the host waits for a synchronization with the device
behind the packet and the advertising set the packet is of, the only event is that the
synchronization is established. It has the smallest handle that is free. -/
theorem C110_established {ah : Hash} {cfg : Config} {a : Option Address} {ops : List Op} {s : State} {n : Ask} {m : Trains}
    {rnd : Irk → Address} {now : Nat} {p : PeriodicPdu} {r : AddressWithType} {x : State × Obs}
    (hr : runAsk ah cfg ops (initial a) (.initial a) = .ok (s, n)) (hm : runTrains ah cfg ops (initial a) {} = .ok (s, m))
    (hq : n.scansExtended) (hi : n.identity ah p.adv r) (hw : m.waits ⟨kindOf r, r.address, p.sid⟩)
    (h : step ah cfg s (.receive rnd now (.periodic p)) = .ok x) :
    ∃ k, x.2.out = [.syncEstablished k p.sid r p.interval] ∧ k < 65536 ∧ k ∉ m.synced.map (·.1) ∧
      ∀ j < k, j ∈ m.synced.map (·.1) := by
  have hT := tied_run (tied_initial a) hr
  have hM := trains_run (trains_initial a) hm
  obtain ⟨h1, h2⟩ := (scansExtended_iff hT).2 hq
  have hr' := (identity_iff ah s.le p.adv r).2 ((identifies_iff hT.1 _ _).2 hi)
  rw [kindOf_toPeerType, ← waits_iff hM] at hw
  obtain ⟨l, hl⟩ := resolveUpdate_frame ah s.le p.adv
  have hsy : (resolveUpdate ah s.le p.adv).synchronized = s.le.synchronized := by rw [hl]
  have hsg : (resolveUpdate ah s.le p.adv).synchronizing = s.le.synchronizing := by rw [hl]
  have hmem : ∀ k, (mapFind s.le.synchronized k).isSome = true ↔ k ∈ m.synced.map (·.1) := by
    intro k
    rw [mapFind_isSome_iff, ← hM.4, List.map_map]
    rfl
  have hw' : matchesSynchronizing (resolveUpdate ah s.le p.adv) ⟨r.toPeerType, r.address, p.sid⟩ = true := by
    rw [resolveUpdate_matches]; exact hw
  simp only [step, receive, periodicPdu, h1, h2, hr', hw', hsy, hsg, Bool.true_eq_false, if_false, if_true] at h
  obtain ⟨y, hy, h⟩ := Res.bind_eq_ok h
  cases h
  split at hy
  · rename_i hz; simp [matchesSynchronizing, hz] at hw
  · split at hy
    · cases hy
    · rename_i hlt
      cases hy
      obtain ⟨g1, g2⟩ := freeSyncHandle_spec s.le.synchronized
      refine ⟨_, rfl, by omega, ?_, ?_⟩
      · rw [← hmem, g1]; simp
      · intro j hj; rw [← hmem]; exact g2 j hj

/-- **C110 (reports).** If the host waits for no synchronization with the device behind
the packet, the only events are reports. Every handle the host was told for this device
and advertising set is reported the whole data, once, in pieces of at most 247 bytes; no
other handle is reported anything. In full, no scan is needed, and a synchronization the
host asked for with reports disabled is reported nothing: see `C110_scan_violated`,
`C110_disabled_violated`. -/
theorem C110_reported_partial {ah : Hash} {cfg : Config} {a : Option Address} {ops : List Op} {s : State} {n : Ask} {m : Trains}
    {rnd : Irk → Address} {now : Nat} {p : PeriodicPdu} {r : AddressWithType} {x : State × Obs}
    (hr : runAsk ah cfg ops (initial a) (.initial a) = .ok (s, n)) (hm : runTrains ah cfg ops (initial a) {} = .ok (s, m))
    (hq : n.scansExtended) (hi : n.identity ah p.adv r) (hw : ¬ m.waits ⟨kindOf r, r.address, p.sid⟩)
    (h : step ah cfg s (.receive rnd now (.periodic p)) = .ok x) :
    (∀ o ∈ x.2.out, ∃ k c d, o = .periodicReport k c d) ∧
    ∀ k, ((k, ⟨kindOf r, r.address, p.sid⟩) ∈ m.synced → WholeSeries 247 p.data (periodicReportsOf k x.2.out)) ∧
      ((k, ⟨kindOf r, r.address, p.sid⟩) ∉ m.synced → periodicReportsOf k x.2.out = []) := by
  have hT := tied_run (tied_initial a) hr
  have hM := trains_run (trains_initial a) hm
  obtain ⟨obs, ho⟩ := runAsk_run hr
  have hn := (syncKeys_nodup ⟨a, ops, obs, ho⟩).1
  obtain ⟨h1, h2⟩ := (scansExtended_iff hT).2 hq
  have hr' := (identity_iff ah s.le p.adv r).2 ((identifies_iff hT.1 _ _).2 hi)
  rw [kindOf_toPeerType] at hw ⊢
  rw [← waits_iff hM] at hw
  obtain ⟨l, hl⟩ := resolveUpdate_frame ah s.le p.adv
  have hsy : (resolveUpdate ah s.le p.adv).synchronized = s.le.synchronized := by rw [hl]
  have hw' : matchesSynchronizing (resolveUpdate ah s.le p.adv) ⟨r.toPeerType, r.address, p.sid⟩ = false := by
    rw [resolveUpdate_matches]; simpa using hw
  simp only [step, receive, periodicPdu, h1, h2, hr', hw', hsy, Bool.true_eq_false, Bool.false_eq_true, if_false] at h
  obtain ⟨y, hy, h⟩ := Res.bind_eq_ok h
  cases h
  cases hy
  refine ⟨?_, ?_⟩
  · intro o ho
    simp only [List.mem_flatMap, List.mem_map] at ho
    obtain ⟨e, -, f, -, rfl⟩ := ho
    exact ⟨_, _, _, rfl⟩
  · intro k
    rw [periodicReportsOf_flatMap _ _ _ (hn.sublist ((List.filter_sublist).map _))]
    have hk : (k ∈ (s.le.synchronized.filter (fun x => x.2.advertiser == ⟨r.toPeerType, r.address, p.sid⟩)).map (·.1)) ↔
        (k, (⟨r.toPeerType, r.address, p.sid⟩ : PalEntry)) ∈ m.synced := by
      rw [← hM.4]
      simp only [List.mem_map, List.mem_filter, beq_iff_eq, Prod.mk.injEq]
      constructor
      · rintro ⟨e, ⟨g1, g2⟩, g3⟩; exact ⟨e, g1, g3, g2⟩
      · rintro ⟨e, g1, g3, g2⟩; exact ⟨e, ⟨g1, g2⟩, g3⟩
    refine ⟨fun h => ?_, fun h => ?_⟩
    · rw [if_pos (hk.2 h)]
      exact fragments_whole maxPeriodicFragment (by decide) p.data
    · rw [if_neg (fun g => h (hk.1 g))]

/-- **C110 (list).** A device is never twice on the periodic advertiser list, so that
removing it once removes it. -/
theorem C110_list {ah : Hash} {cfg : Config} {a : Option Address} {ops : List Op} {s : State} {m : Trains}
    (hm : runTrains ah cfg ops (initial a) {} = .ok (s, m)) : m.list.Nodup :=
  (trains_run (trains_initial a) hm).3

/-! ### Where the controller does not do what the host asked -/

def trainAdvertiser : PalEntry := ⟨.pub, 0xA, 3⟩
def trainPdu : PeriodicPdu := ⟨⟨0xA, .publicDevice⟩, 3, 80, [1, 2]⟩

def trainStart : List Op :=
  [.cmd (.setExtendedScanParameters .pub .acceptAll 1 [⟨.passive, 0x10, 0x10⟩]),
   .cmd (.setExtendedScanEnable 0 true .disabled 0 0),
   .cmd (.createSync {} trainAdvertiser 10 0),
   .receive (fun _ => 0) 0 (.periodic trainPdu)]

def trainEstablished : List (List Out) := [[], [], [], [.syncEstablished 0 3 ⟨0xA, .publicDevice⟩ 80]]

/-- **Counterexample.** The host is synchronized with an advertiser and ends its scan. The
packets of the advertiser are no longer reported, though the synchronization was not
terminated and is not reported as lost. -/
theorem C110_scan_violated :
    outputs (trainStart ++ [.cmd (.setExtendedScanEnable 0 false .disabled 0 0), .receive (fun _ => 0) 1000 (.periodic trainPdu)]) =
    trainEstablished ++ [[], []] := by
  decide +kernel

/-- **Counterexample.** The host asked for a timeout of 100 ms. After 1000 seconds without
a packet it was not told that the synchronization is lost; it may not ask for a new one,
and the next packet is reported. -/
theorem C110_lost_violated :
    outputs (trainStart ++ [.tick 1000000000, .receive (fun _ => 0) 1000000000 (.periodic trainPdu)]) =
      trainEstablished ++ [[], [.periodicReport 0 true [1, 2]]] ∧
    (match run (fun _ _ => 0) Config.default (trainStart ++ [.tick 1000000000, .cmd (.createSync {} trainAdvertiser 10 0)]) (initial none) with
      | .ok (_, obs) => obs.map (·.status)
      | _ => []) = [some .success, some .success, some .success, none, none, some .connectionAlreadyExists] := by
  decide +kernel

/-- **Counterexample.** The host asked for a synchronization with reports disabled. Packets
are reported all the same. -/
theorem C110_disabled_violated :
    outputs [.cmd (.setExtendedScanParameters .pub .acceptAll 1 [⟨.passive, 0x10, 0x10⟩]),
       .cmd (.setExtendedScanEnable 0 true .disabled 0 0),
       .cmd (.createSync { disableReporting := true } trainAdvertiser 10 0),
       .receive (fun _ => 0) 0 (.periodic trainPdu), .receive (fun _ => 0) 0 (.periodic trainPdu)] =
    trainEstablished ++ [[.periodicReport 0 true [1, 2]]] := by
  decide +kernel

/-! ### Non-vacuity -/

/-- Run some operations and read the notes on periodic advertising. -/
def notedTrains {α : Type} (f : Trains → α) (ops : List Op) : Option α :=
  match runTrains (fun _ _ => 0) Config.default ops (initial none) {} with
  | .ok (_, m) => some (f m)
  | _ => none

/-- The host waits for the advertiser, then it is synchronized, then no longer. -/
example : notedTrains (fun m => (m.want, m.synced)) (trainStart.take 3) = some (some (false, trainAdvertiser), []) ∧
    notedTrains (fun m => (m.want, m.synced)) trainStart = some (none, [(0, trainAdvertiser)]) := by
  decide +kernel

example : notedTrains (fun m => (m.want, m.synced)) (trainStart ++ [.cmd (.terminateSync 0)]) = some (none, []) ∧
    notedTrains (fun m => (m.want, m.synced)) (trainStart.take 3 ++ [.cmd .createSyncCancel]) = some (none, []) := by
  decide +kernel

example : noted (fun n => n.scan.map (·.extended)) trainStart = some (some true) := by
  decide +kernel

/-- By the list: a device that is not on it is not synchronized with, one that is on it is;
then another one takes the next handle. -/
example :
    let scan : List Op := trainStart.take 2
    let b : PalEntry := ⟨.random, 0xB, 1⟩
    let pduB : PeriodicPdu := ⟨⟨0xB, .randomDevice⟩, 1, 80, [7]⟩
    let ops : List Op := scan ++ [.cmd (.addPeriodicAdvertiser trainAdvertiser), .cmd (.createSync { useList := true } b 10 0),
      .receive (fun _ => 0) 0 (.periodic pduB), .receive (fun _ => 0) 0 (.periodic trainPdu),
      .cmd (.createSync {} b 10 0), .receive (fun _ => 0) 0 (.periodic pduB), .receive (fun _ => 0) 0 (.periodic pduB)]
    (outputs ops).drop 4 = [[], [.syncEstablished 0 3 ⟨0xA, .publicDevice⟩ 80], [], [.syncEstablished 1 1 ⟨0xB, .randomDevice⟩ 80], [.periodicReport 1 true [7]]] ∧
    notedTrains (fun m => (m.list, m.synced)) ops = some ([trainAdvertiser], [(0, trainAdvertiser), (1, b)]) := by
  decide +kernel

end Verif.Ll
