import Verif.Ll.SpecAsk
import Verif.Le.SpecAir
/-!
# Advertising as the host asked, among other devices: specification (C112)

The host's notes of C107 (what is advertised) and C20 (the data of the advertising sets)
are kept while packets come in. Together with the notes of C109 (the filter accept list
and the resolving list) they foretell which scan requests are answered and which
connect requests are accepted.
-/

namespace Verif.Ll
open Verif.Le

/-- The notes of a host that advertises. -/
structure Offer where
  air : Notes := {}
  data : Ghost := {}

/-- The notes when the controller starts. -/
def Offer.initial (defaultRandomAddress : Option Address) : Offer := ⟨Notes.initial defaultRandomAddress, {}⟩

/-- The host is told of a connection as a peripheral. -/
def taken (out : List Out) : Bool :=
  out.any fun o => match o with
    | .connected _ c => c.role == .peripheral
    | _ => false

/-- The advertising set the host is told has ended. -/
def ended (out : List Out) : Option UInt8 :=
  out.findSome? fun o => match o with
    | .setTerminated h _ _ => some h
    | _ => none

/-- The notes after an operation: with a connection as a peripheral, the set the host is
told has ended stops advertising, or else the legacy advertiser. -/
def Offer.note (pub : Address) (n : Offer) (o : Op) (b : Obs) : Offer :=
  match o with
  | .cmd c => ⟨Le.note pub n.air (.cmd c) b.status, record n.data (.cmd c) b.status⟩
  | .tick now => { n with air := happened n.air (.tick now) }
  | .receive .. =>
    if taken b.out then
      match ended b.out with
      | some h => { n with air := happened n.air (.extendedConnected h) }
      | none => { n with air := happened n.air .legacyConnected }
    else n
  | .reset => {}
  | _ => n

/-- Run some operations and take notes. -/
def runOffer (ah : Hash) (cfg : Config) : List Op → State → Offer → Res (State × Offer)
  | [], s, n => .ok (s, n)
  | o :: os, s, n => (step ah cfg s o).bind fun x => runOffer ah cfg os x.1 (n.note cfg.publicAddress o x.2)

/-- No LE Set Extended Advertising Enable for several sets was refused (see C107). -/
def Whole (ah : Hash) (cfg : Config) : List Op → State → Prop
  | [], _ => True
  | o :: os, s =>
    match step ah cfg s o with
    | .ok x => (∀ c, o = .cmd c → ¬ Torn (.cmd c) x.2.status) ∧ Whole ah cfg os x.1
    | .abort => True
    | .hang => True
    | .ub => True

/-! ### What the notes foretell -/

/-- The filter policy of an advertiser lets the device scan. -/
def Ask.mayScan (n : Ask) (p : AdvertisingFilterPolicy) (r : AddressWithType) : Bool :=
  match p with
  | .allDevices => true
  | .listedConnect => true
  | .listedScan => decide (0 < n.accept (kindOf r) r.address)
  | .listedScanAndConnect => decide (0 < n.accept (kindOf r) r.address)

/-- The filter policy of an advertiser lets the device connect. -/
def Ask.mayConnect (n : Ask) (p : AdvertisingFilterPolicy) (r : AddressWithType) : Bool :=
  match p with
  | .allDevices => true
  | .listedScan => true
  | .listedConnect => decide (0 < n.accept (kindOf r) r.address)
  | .listedScanAndConnect => decide (0 < n.accept (kindOf r) r.address)

/-- The device directed advertising is for. -/
def deviceOf (t : PeerAddressType) (a : Address) : AddressWithType :=
  match t with
  | .pub => ⟨a, .publicDevice⟩
  | .random => ⟨a, .randomDevice⟩

/-- The legacy advertiser advertises with this address. -/
def _root_.Verif.Le.LegacyNotes.uses (g : LegacyNotes) (adv : AddressWithType) : Bool :=
  match g.running with
  | none => false
  | some r => decide (r.adv = adv)

/-- The advertising set advertises with this address. -/
def _root_.Verif.Le.SetNotes.uses (m : SetNotes) (adv : AddressWithType) : Bool := m.running.isSome && decide (m.adv = adv)

/-- The legacy advertiser answers a scan request of the device `r`: it is scannable. -/
def _root_.Verif.Le.LegacyNotes.answers (g : LegacyNotes) (n : Ask) (r adv : AddressWithType) : Bool :=
  g.uses adv && decide (g.type = .advInd ∨ g.type = .advScanInd) && n.mayScan g.policy r

/-- The advertising set answers a scan request of the device `r`. If it is directed, to
its target address only. -/
def _root_.Verif.Le.SetNotes.answers (m : SetNotes) (n : Ask) (r adv : AddressWithType) : Bool :=
  m.uses adv && m.params.properties.scannable && n.mayScan m.params.policy r &&
    (!m.params.properties.directed || decide (m.target = r))

/-- The legacy advertiser accepts a connect request of the device `r`: directed
advertising is for one device, undirected advertising follows the filter policy. -/
def _root_.Verif.Le.LegacyNotes.accepts (g : LegacyNotes) (n : Ask) (r adv : AddressWithType) : Bool :=
  g.uses adv &&
    match g.type with
    | .advInd => n.mayConnect g.policy r
    | .advDirectIndHigh => decide (r = deviceOf g.peerType g.peer)
    | .advDirectIndLow => decide (r = deviceOf g.peerType g.peer)
    | .advScanInd => false
    | .advNonconnInd => false

/-- The advertising set accepts a connect request of the device `r`. -/
def _root_.Verif.Le.SetNotes.accepts (m : SetNotes) (n : Ask) (r adv : AddressWithType) : Bool :=
  m.uses adv && m.params.properties.connectable &&
    if m.params.properties.directed then decide (r = deviceOf m.params.peerType m.params.peer)
    else n.mayConnect m.params.policy r

/-- The answers to a scan request: of the legacy advertiser, and of the sets in some
order. -/
def Offer.Answers (g : Offer) (n : Ask) (r scanner adv : AddressWithType) (out : List Out) : Prop :=
  ∃ order : List UInt8, order.Nodup ∧ (∀ h, h ∈ order ↔ (g.air.sets h).isSome = true) ∧
    out = (if g.air.legacy.answers n r adv then [.send (.scanResponse adv scanner.address g.air.legacy.response)] else []) ++
      order.flatMap fun h =>
        if (g.air.sets h).any (fun m => m.answers n r adv) then
          [.send (.scanResponse adv scanner.address (assembled (g.data.scan h)))]
        else []

/-! ### What is sent as time passes -/

/-- The PDU of a legacy advertising type. -/
def pduOf : AdvertisingType → PduType
  | .advInd => .advInd
  | .advDirectIndHigh => .advDirectInd
  | .advDirectIndLow => .advDirectInd
  | .advScanInd => .advScanInd
  | .advNonconnInd => .advNonconnInd

/-- The PHYs of the PDUs of a set. -/
def _root_.Verif.Le.SetNotes.phys (m : SetNotes) : PhyType × PhyType :=
  (match m.params.primaryPhy with
   | .le1m => .le1m
   | .leCoded => .codedS8,
   match m.params.secondaryPhy with
   | .noPackets => .noPackets
   | .le1m => .le1m
   | .le2m => .le2m
   | .leCoded => .codedS8)

/-- What C107 foretells, as a packet on air or an event. -/
def onAir (g : Notes) : AdvOut → Out
  | .legacyPdu _ t adv target d => .send (.legacyAdv ⟨adv, target, pduOf t, d⟩)
  | .extendedPdu h adv target c sc di sid i d =>
    let y := ((g.sets h).map SetNotes.phys).getD (.le1m, .noPackets)
    .send (.extAdv ⟨adv, target, c, sc, di, sid, y.1, y.2, i, d⟩)
  | .periodicPdu _ adv sid i d => .send (.periodic ⟨adv, sid, i, d⟩)
  | .directedTimeout => .directedTimeout
  | .setTerminated h k => .setTerminated h none k

/-- The scan of the host ends at this time. -/
def Ask.scanEnds (n : Ask) (now : Nat) : Bool := n.scan.any fun r => (r.tick now).isNone

end Verif.Ll
