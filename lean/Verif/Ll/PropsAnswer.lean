import Verif.Ll.AnswerLemmas
/-!
# Advertising as the host asked, among other devices (C112)

For every history of commands, packets and time, the notes of the host foretell what its
advertisers send as time passes, which scan requests they answer and which connect
requests they accept. As in C107, histories in which an LE Set Extended Advertising
Enable for several sets was refused are left out (`Whole`): see `C107_on_air_violated`.
-/

namespace Verif.Ll
open Verif.Le

/-- Whatever happens, the host has notes. -/
theorem C112_notes {ah : Hash} {cfg : Config} {a : Option Address} {ops : List Op} {s : State} {obs : List Obs}
    (h : run ah cfg ops (initial a) = .ok (s, obs)) :
    (∃ n, runAsk ah cfg ops (initial a) (.initial a) = .ok (s, n)) ∧ ∃ g, runOffer ah cfg ops (initial a) (.initial a) = .ok (s, g) :=
  ⟨runAsk_exists _ h, runOffer_exists _ h⟩

/-- **C112 (scan requests).** A scan request for the address `adv` is answered by the
legacy advertiser if it advertises with that address, can be scanned and its filter
policy lets the device behind the scanner scan, and by each advertising set to which this
applies and which, if it is directed, is directed to the device. The answers hold the
scan response data the host has set, and nothing else is sent. In full, refused commands
for several sets must not make a difference, see `C107_on_air_violated`; a directed set
must answer the device it is for, see `C112_directed_violated`; and the host must be told
of the scan request if it asked for it, see `C112_notified_violated`. -/
theorem C112_scan_partial {ah : Hash} {cfg : Config} {a : Option Address} {ops : List Op} {s : State} {n : Ask} {g : Offer}
    {rnd : Irk → Address} {now : Nat} {scanner adv r : AddressWithType} {x : State × Obs}
    (hn : runAsk ah cfg ops (initial a) (.initial a) = .ok (s, n)) (hg : runOffer ah cfg ops (initial a) (.initial a) = .ok (s, g))
    (hw : Whole ah cfg ops (initial a)) (hr : n.identity ah scanner r)
    (h : step ah cfg s (.receive rnd now (.scan scanner adv)) = .ok x) : g.Answers n r scanner adv x.2.out := by
  obtain ⟨-, hT, hO⟩ := offered_run (tied_initial a) (offered_initial cfg a) hw hn hg
  cases h
  exact answers_scan hT hO hr

/-- **C112 (connect requests).** A connect request for the address `adv` is accepted by the
legacy advertiser, or else by an advertising set, which then ends, if it advertises with that address and, being
undirected, its filter policy lets the device behind the initiator connect, or, being
directed, it is directed to the device. The host is told of one connection, the
initiator is told, and nothing else is sent. In full, refused commands for several sets
must not make a difference, see `C107_on_air_violated`. -/
theorem C112_connect_partial {ah : Hash} {cfg : Config} {a : Option Address} {ops : List Op} {s : State} {n : Ask} {g : Offer}
    {rnd : Irk → Address} {now : Nat} {init adv r : AddressWithType} {q : LinkParams} {x : State × Obs}
    (hn : runAsk ah cfg ops (initial a) (.initial a) = .ok (s, n)) (hg : runOffer ah cfg ops (initial a) (.initial a) = .ok (s, g))
    (hw : Whole ah cfg ops (initial a)) (hr : n.identity ah init r)
    (h : step ah cfg s (.receive rnd now (.connect init adv q)) = .ok x) :
    (g.air.legacy.accepts n r adv = true →
      ∃ k, x.2.out = [.connected k ⟨init, adv, if r = init then ⟨0, .publicDevice⟩ else r, .peripheral, q⟩,
        .send (.connectComplete init adv q)]) ∧
    (g.air.legacy.accepts n r adv = false → (∃ h m, g.air.sets h = some m ∧ m.accepts n r adv = true) →
      ∃ k h m run, g.air.sets h = some m ∧ m.accepts n r adv = true ∧ m.running = some run ∧
        x.2.out = [.connected k ⟨init, adv, if r = init then ⟨0, .publicDevice⟩ else r, .peripheral, q⟩,
          .send (.connectComplete init adv q), .setTerminated h (some k) (run.sent % 256)]) ∧
    (g.air.legacy.accepts n r adv = false → (∀ h m, g.air.sets h = some m → m.accepts n r adv = false) → x.2.out = []) := by
  obtain ⟨-, hT, hO⟩ := offered_run (tied_initial a) (offered_initial cfg a) hw hn hg
  have hid : resolved ah s.le init = r := (identity_iff _ _ _ _).2 ((identifies_iff hT.1 init r).2 hr)
  have hl := legacyTakes_notes hT.1 hO.air.legacy r adv
  have hc : acceptedConn ah s.le init adv q = ⟨init, adv, if r = init then ⟨0, .publicDevice⟩ else r, .peripheral, q⟩ := by
    unfold acceptedConn resolvedOrEmpty
    rw [hid]
    by_cases he : r = init
    · rw [if_neg (fun h => h he), if_pos he]
    · rw [if_pos he, if_neg he]
  rcases connect_cases h with ⟨h1, -, h2, h3⟩ | ⟨k, h1, h2, -⟩ | ⟨k, i, b, h0, h1, h2, -, -, -, h6⟩
  · rw [hid] at h2 h3
    have hf : g.air.legacy.accepts n r adv = false := by
      cases hb : g.air.legacy.accepts n r adv with
      | false => rfl
      | true => exact absurd (hl.2 hb) h2
    refine ⟨fun hb => absurd (hf.symm.trans hb) nofun, fun _ hs => ?_, fun _ _ => h1⟩
    obtain ⟨i, m, hm, hma⟩ := hs
    have hs := hO.air.sets i
    rw [hm] at hs
    obtain ⟨b, hb, hmb⟩ := hs.some_left
    exact absurd ((setTakes_notes hT.1 hmb r adv).2 hma) (h3 (i, b) (mapFind_some_mem hb))
  · rw [hid] at h1
    rw [hc] at h2
    refine ⟨fun _ => ⟨k, h2⟩, fun hb => ?_, fun hb => ?_⟩ <;> exact absurd (hb.symm.trans (hl.1 h1)) nofun
  · rw [hid] at h1 h6
    rw [hc] at h2
    have hs := hO.air.sets i
    rw [mapFind_mem hO.data.keys h0] at hs
    obtain ⟨m, hm, hma⟩ := hs.some_right
    have hacc := (setTakes_notes hT.1 hma r adv).1 h1
    refine ⟨fun hb => absurd (hl.2 hb) h6, fun _ _ => ?_, fun _ hs => absurd ((hs i m hm).symm.trans hacc) nofun⟩
    cases hrun : m.running with
    | none => exact absurd ((hma.off hrun).symm.trans h1.1) nofun
    | some run =>
      refine ⟨k, i, m, run, hm, hacc, hrun, ?_⟩
      rw [h2, (hma.on run hrun).2.2.1]

/-- **C112 (time).** As time passes, what C107 foretells is sent, also among other
devices: with the address, type, data and PHYs the host asked for. The host is told when
its scan ends. Nothing else is sent. In full, refused commands for several sets must not
make a difference, see `C107_on_air_violated`. -/
theorem C112_tick_partial {ah : Hash} {cfg : Config} {a : Option Address} {ops : List Op} {s : State} {n : Ask} {g : Offer}
    {now : Nat} {x : State × Obs}
    (hn : runAsk ah cfg ops (initial a) (.initial a) = .ok (s, n)) (hg : runOffer ah cfg ops (initial a) (.initial a) = .ok (s, g))
    (hw : Whole ah cfg ops (initial a)) (h : step ah cfg s (.tick now) = .ok x) :
    ∃ l, Foretold g.air g.data now l ∧ x.2.out = l.map (onAir g.air) ++ if n.scanEnds now then [.scanTimeout] else [] := by
  obtain ⟨-, hT, hO⟩ := offered_run (tied_initial a) (offered_initial cfg a) hw hn hg
  simp only [step] at h
  obtain ⟨y, hy, h⟩ := Res.bind_eq_ok h
  cases h
  obtain ⟨-, l, h1, h2⟩ := tick_foretold hO hy
  refine ⟨l, h1, ?_⟩
  simp only [h2, scanEnds_eq hT]
  congr 1
  exact List.map_congr_left fun o _ => advOut_notes hO o

/-! ### Examples -/

/-- A function in the place of the random address hash function. -/
def offerHash : Hash := fun k p => p ^^^ (k.setWidth 24)

/-- What is sent and told at the last of some operations. -/
def lastOut (ops : List Op) : List Out :=
  match run offerHash Config.default ops (initial none) with
  | .ok (_, obs) => (obs.getLast?.map (·.out)).getD []
  | _ => []

/-- The legacy advertiser is on, with a filter policy for scan requests. -/
def offerOps (policy : AdvertisingFilterPolicy) : List Op :=
  [.cmd (.setAdvertisingParameters ⟨0x20, 0x20, .advInd, .pub, .pub, 0, 7, policy⟩),
   .cmd (.setScanResponseData [7, 8]), .cmd (.addFilterAccept .random 0xB),
   .cmd (.setAdvertisingEnable 1000 (fun _ _ => 0) true)]

/-- The requests of a device. -/
def scanOp (a adv : AddressWithType) : Op := .receive (fun _ => 0) 2000 (.scan a adv)

def ourAddress : AddressWithType := ⟨0x112233445566, .publicDevice⟩

/-- Listed devices are answered, others are not. -/
example :
    lastOut (offerOps .listedScan ++ [scanOp ⟨0xB, .randomDevice⟩ ourAddress]) = [.send (.scanResponse ourAddress 0xB [7, 8])] ∧
    lastOut (offerOps .listedScan ++ [scanOp ⟨0xB, .publicDevice⟩ ourAddress]) = [] ∧
    lastOut (offerOps .allDevices ++ [scanOp ⟨0xB, .publicDevice⟩ ourAddress]) = [.send (.scanResponse ourAddress 0xB [7, 8])] ∧
    lastOut (offerOps .listedScan ++ [scanOp ⟨0xB, .randomDevice⟩ ⟨0x99, .publicDevice⟩]) = [] := by
  decide +kernel

/-- Nothing is torn in these histories. -/
example : Whole offerHash Config.default (offerOps .listedScan) (initial none) :=
  ⟨fun _ h => by cases h; exact fun ⟨_, _, _, _, _, h, _⟩ => (nomatch h), fun _ h => by cases h; exact fun ⟨_, _, _, _, _, h, _⟩ => (nomatch h),
   fun _ h => by cases h; exact fun ⟨_, _, _, _, _, h, _⟩ => (nomatch h), fun _ h => by cases h; exact fun ⟨_, _, _, _, _, h, _⟩ => (nomatch h), trivial⟩

/-- A scannable set directed to the public device 0xA. -/
def directedSet (notify : Bool) : ExtParams :=
  ⟨{ scannable := true, directed := true }, 0x20, 0x40, 7, .pub, .pub, 0xA, .allDevices, 0, .le1m, 0, .le1m, 3, notify⟩

def directedOps (known notify : Bool) : List Op :=
  (if known then [.cmd (.addResolving .pub 0xA 7 5), .cmd (.setAddressResolutionEnable true)] else []) ++
  [.cmd (.setExtAdvertisingParameters 1 (directedSet notify)), .cmd (.setExtScanResponseData 1 .completeAdvertisement [9]),
   .cmd (.setExtAdvertisingEnable 100 (fun _ _ => 0x7f12347f1233) true [⟨1, 0, 0⟩])]

/-- The device the set is directed to is answered. -/
example : lastOut (directedOps false false ++ [scanOp ⟨0xA, .publicDevice⟩ ourAddress]) = [.send (.scanResponse ourAddress 0xA [9])] ∧
    lastOut (directedOps false false ++ [scanOp ⟨0xB, .publicDevice⟩ ourAddress]) = [] := by
  decide +kernel

/-- **Counterexample.** If the device is in the resolving list, the set is directed to an
address generated for it. Scan requests are compared with that address after they were
resolved: the device is not answered, neither with its identity address nor with the very
address the set is directed to. -/
theorem C112_directed_violated :
    lastOut (directedOps true false ++ [scanOp ⟨0xA, .publicDevice⟩ ourAddress]) = [] ∧
    lastOut (directedOps true false ++ [.tick 100]) =
      [.send (.extAdv ⟨ourAddress, ⟨0x7f12347f1233, .randomDevice⟩, false, true, true, 3, .le1m, .le1m, 0, []⟩)] ∧
    lastOut (directedOps true false ++ [scanOp ⟨0x7f12347f1233, .randomDevice⟩ ourAddress]) = [] := by
  decide +kernel

/-- **Counterexample.** A host that asked to be told of scan requests is told nothing: only
the answer goes out. -/
theorem C112_notified_violated :
    lastOut (directedOps false true ++ [scanOp ⟨0xA, .publicDevice⟩ ourAddress]) = [.send (.scanResponse ourAddress 0xA [9])] := by
  decide +kernel

/-- The parameters of a request. -/
def offerLink : LinkParams := ⟨0x18, 0, 0x1f4⟩

/-- A connection ends the advertising: the second request is not accepted, and nothing is
sent any more. -/
example :
    lastOut (offerOps .allDevices ++ [.receive (fun _ => 0) 2000 (.connect ⟨0xB, .publicDevice⟩ ourAddress offerLink)]) =
      [.connected 0x200 ⟨⟨0xB, .publicDevice⟩, ourAddress, ⟨0, .publicDevice⟩, .peripheral, offerLink⟩,
       .send (.connectComplete ⟨0xB, .publicDevice⟩ ourAddress offerLink)] ∧
    lastOut (offerOps .allDevices ++ [.receive (fun _ => 0) 2000 (.connect ⟨0xB, .publicDevice⟩ ourAddress offerLink),
      .receive (fun _ => 0) 2000 (.connect ⟨0xC, .publicDevice⟩ ourAddress offerLink)]) = [] ∧
    lastOut (offerOps .allDevices ++ [.tick 30000]) = [.send (.legacyAdv ⟨ourAddress, ⟨0, .publicDevice⟩, .advInd, []⟩)] ∧
    lastOut (offerOps .allDevices ++ [.receive (fun _ => 0) 2000 (.connect ⟨0xB, .publicDevice⟩ ourAddress offerLink), .tick 30000]) = [] := by
  decide +kernel

end Verif.Ll
