import Verif.Ll.SpecInit
import Verif.Ll.SpecReport
import Verif.Le.SpecParams
/-!
# Scanning and initiating as the host asked: specification (C109)

The host keeps notes: it writes down the commands the controller accepted, and the
events and packets that followed. From these notes alone it foretells which advertisers
it hears of, which are sent a scan request and which a connect request.
-/

namespace Verif.Ll
open Verif.Le

/-- A peer the host put in the resolving list. -/
structure Peer where
  type : PeerAddressType
  address : Address
  peerKey : Irk
  localKey : Irk
  deriving DecidableEq

/-- Notes on a scan that goes on: started by the legacy or the extended command; how
duplicates are filtered; its duration and period in microseconds (0: none), since when
it goes on (a scan with periods: since when its period goes on); the packets that were
reported; the advertisers that were sent a scan request, and until when they may
answer. -/
structure Scan where
  extended : Bool
  filter : FilterDuplicates
  duration : Nat
  period : Nat
  since : Nat
  heard : List Packet := []
  awaits : AddressWithType → Option Nat := fun _ => none

/-- Notes on a connection being created: by the legacy or the extended command, with
whom, the parameters given for the LE 1M PHY, and whether a connect request was sent. -/
structure Call where
  extended : Bool
  policy : InitiatorFilterPolicy
  peer : AddressWithType
  own : OwnAddressType
  params : Option ConnParams
  asked : Bool := false

/-- The notes of the host. `accept t a` is how often a device was added to the filter
accept list without being removed. `le1m` and `coded` are the kinds of scanning asked
for on these PHYs. -/
structure Ask where
  random : Address := 0
  accept : PeerAddressType → Address → Nat := fun _ _ => 0
  peers : List Peer := []
  resolve : Bool := false
  policy : ScanFilterPolicy := .acceptAll
  own : OwnAddressType := .pub
  le1m : Option ScanType := none
  coded : Option ScanType := none
  scan : Option Scan := none
  call : Option Call := none

/-- The host added this device to the filter accept list, or removes it. -/
def sameDevice (t : FalAddressType) (a : Address) (t' : PeerAddressType) (a' : Address) : Bool :=
  match t, t' with
  | .pub, .pub => a == a'
  | .random, .random => a == a'
  | _, _ => false

/-- The notes after an accepted command. -/
def Ask.accepted (n : Ask) : Cmd → Ask
  | .setRandomAddress a => { n with random := a }
  | .addResolving t a pk lk => { n with peers := n.peers ++ [⟨t, a, pk, lk⟩] }
  | .removeResolving t a => { n with peers := n.peers.filter fun e => !(e.type == t && e.address == a) }
  | .clearResolving => { n with peers := [] }
  | .setAddressResolutionEnable e => { n with resolve := e }
  | .clearFilterAccept => { n with accept := fun _ _ => 0 }
  | .addFilterAccept t a => { n with accept := fun t' a' => n.accept t' a' + (if sameDevice t a t' a' then 1 else 0) }
  | .removeFilterAccept t a => { n with accept := fun t' a' => n.accept t' a' - (if sameDevice t a t' a' then 1 else 0) }
  | .setScanParameters t _ _ own policy => { n with policy := policy, own := own, le1m := some t, coded := none }
  | .setExtendedScanParameters own policy phys params =>
    { n with policy := policy, own := own,
             le1m := (listedFor phys.toNat params .le1m).map (·.scanType),
             coded := (listedFor phys.toNat params .leCoded).map (·.scanType) }
  | .setScanEnable true f => { n with scan := some { extended := false, filter := if f then .enabled else .disabled, duration := 0, period := 0, since := 0 } }
  | .setScanEnable false _ => { n with scan := none }
  | .setExtendedScanEnable now true fd d p =>
    { n with scan := some { extended := true, filter := fd, duration := 10000 * d, period := if d = 0 then 0 else 1280000 * p, since := now } }
  | .setExtendedScanEnable _ false _ _ _ => { n with scan := none }
  | .createConnection _ policy peer own p => { n with call := some { extended := false, policy := policy, peer := peer, own := own, params := some p } }
  | .extendedCreateConnection _ policy own peer phys params =>
    { n with call := some { extended := true, policy := policy, peer := peer, own := own, params := listedFor phys.toNat params .le1m } }
  | .createConnectionCancel => { n with call := none }
  | _ => n

/-- Among some outputs there is an advertising report. -/
def told (out : List Out) : Bool :=
  out.any fun o => match o with
    | .directedReport .. => true
    | .legacyReport .. => true
    | .extReport .. => true
    | _ => false

/-- Time passes for a scan: without periods it ends when its duration has passed. With
periods a new one begins when the last one has passed. Advertisers have 200 ms to
answer a scan request. -/
def Scan.tick (now : Nat) (r : Scan) : Option Scan :=
  let r := { r with awaits := fun a => (r.awaits a).filter fun t => decide (now < t) }
  if r.period = 0 then
    if r.duration ≠ 0 ∧ r.since + r.duration ≤ now then none else some r
  else if r.since + r.period ≤ now then
    some { r with since := now, heard := if r.filter = .resetEachPeriod then [] else r.heard }
  else some r

/-- A packet arrived while scanning, with these outputs. -/
def Scan.received (now : Nat) (p : Packet) (out : List Out) (r : Scan) : Scan :=
  { r with
    heard := if told out then p :: r.heard else r.heard
    awaits := fun a => match p with
      | .scanResponse adv _ _ => if a = adv then none else r.awaits a
      | _ => if (scanRequestsOf out).any (fun q => q.2 == a) then some (now + 200000) else r.awaits a }

/-- The host is told of a connection it has asked for. -/
def calledBack (out : List Out) : Bool :=
  out.any fun o => match o with
    | .connected _ c => c.role == .central
    | _ => false

/-- A packet arrived while a connection is being created. -/
def Call.received (out : List Out) (c : Call) : Option Call :=
  if calledBack out then none
  else some { c with asked := c.asked || !(requestsOf out).isEmpty }

/-- The notes after an operation. -/
def Ask.note (n : Ask) (o : Op) (b : Obs) : Ask :=
  match o with
  | .cmd c => if b.status = some .success then n.accepted c else n
  | .receive _ now p =>
    { n with scan := n.scan.map (Scan.received now p b.out), call := n.call.bind (Call.received b.out) }
  | .tick now => { n with scan := n.scan.bind (Scan.tick now) }
  | .reset => {}
  | _ => n

/-- The notes when the controller starts. -/
def Ask.initial (defaultRandomAddress : Option Address) : Ask := { random := defaultRandomAddress.getD 0 }

/-- Run some operations and take notes. -/
def runAsk (ah : Hash) (cfg : Config) : List Op → State → Ask → Res (State × Ask)
  | [], s, n => .ok (s, n)
  | o :: os, s, n => (step ah cfg s o).bind fun x => runAsk ah cfg os x.1 (n.note o x.2)

/-! ### What the notes foretell -/

/-- The kind of a device address, identity or not. -/
def kindOf (a : AddressWithType) : PeerAddressType :=
  match a.type with
  | .publicDevice => .pub
  | .publicIdentity => .pub
  | .randomDevice => .random
  | .randomIdentity => .random

/-- The address of a peer. -/
def Peer.device (e : Peer) : AddressWithType :=
  match e.type with
  | .pub => ⟨e.address, .publicDevice⟩
  | .random => ⟨e.address, .randomDevice⟩

/-- The device was added to the filter accept list. -/
def Ask.listed (n : Ask) (a : AddressWithType) : Prop := 0 < n.accept (kindOf a) a.address

/-- An address of this controller. -/
def Ask.ours (n : Ask) (cfg : Config) (a : AddressWithType) : Prop :=
  a = ⟨cfg.publicAddress, .publicDevice⟩ ∨ a = ⟨n.random, .randomDevice⟩

/-- An address made of the local key for the peer `r`. -/
def Ask.forUs (n : Ask) (ah : Hash) (r a : AddressWithType) : Prop :=
  n.resolve = true ∧ a.type = .randomDevice ∧ ∃ e ∈ n.peers, r = e.device ∧ RpaOf ah e.localKey a.address

/-- The device behind an address: the first peer whose key explains it, if addresses are
resolved and there is one, otherwise the address itself. -/
def Ask.identity (n : Ask) (ah : Hash) (a r : AddressWithType) : Prop :=
  (∃ before e after, n.resolve = true ∧ a.type = .randomDevice ∧ n.peers = before ++ e :: after ∧
      RpaOf ah e.peerKey a.address ∧ (∀ x ∈ before, ¬ RpaOf ah x.peerKey a.address) ∧ r = e.device) ∨
  (¬ (n.resolve = true ∧ a.type = .randomDevice ∧ ∃ e ∈ n.peers, RpaOf ah e.peerKey a.address)) ∧ r = a

/-- The filter policy of the scan lets a PDU of the device `r` through, which is for
`target` if it is directed. -/
def Ask.allows (n : Ask) (ah : Hash) (cfg : Config) (directed : Bool) (r target : AddressWithType) : Prop :=
  match n.policy with
  | .acceptAll => directed = true → n.ours cfg target ∨ n.forUs ah r target
  | .filterAcceptListOnly => n.listed r ∧ (directed = true → n.ours cfg target ∨ n.forUs ah r target)
  | .checkInitiatorsIdentity => directed = true → n.ours cfg target ∨ RpaForm target
  | .filterAcceptListAndInitiatorsIdentity => n.listed r ∧ (directed = true → n.ours cfg target ∨ RpaForm target)

/-- The host asked for scanning on the PHYs of the PDU, and the controller knows them. -/
def Ask.tuned (n : Ask) (cfg : Config) (p : ExtPdu) : Prop :=
  (p.primary = .le1m → n.le1m ≠ none) ∧ (p.primary = .codedS8 → n.coded ≠ none) ∧
  (p.secondary = .le2m → cfg.supports2mPhy = true) ∧
  (p.secondary = .codedS8 ∨ p.secondary = .codedS2 → cfg.supportsCodedPhy = true)

/-- The host asked for active scanning. -/
def Ask.active (n : Ask) : Prop := n.le1m = some .active ∨ n.coded = some .active

/-- The address to use with the device `r`. -/
def Ask.ownFor (n : Ask) (cfg : Config) (rnd : Irk → Address) (r : AddressWithType) (t : OwnAddressType)
    (own : AddressWithType) : Prop :=
  match t with
  | .pub => own = ⟨cfg.publicAddress, .publicDevice⟩
  | .random => own = ⟨n.random, .randomDevice⟩
  | .resolvableOrPublic =>
    (∃ e ∈ n.peers, e.address = r.address ∧ e.type = kindOf r ∧ own = ⟨rnd e.localKey, .randomDevice⟩) ∨
    ((∀ e ∈ n.peers, ¬ (e.address = r.address ∧ e.type = kindOf r)) ∧ own = ⟨cfg.publicAddress, .publicDevice⟩)
  | .resolvableOrRandom =>
    (∃ e ∈ n.peers, e.address = r.address ∧ e.type = kindOf r ∧ own = ⟨rnd e.localKey, .randomDevice⟩) ∨
    ((∀ e ∈ n.peers, ¬ (e.address = r.address ∧ e.type = kindOf r)) ∧ own = ⟨n.random, .randomDevice⟩)

/-- The host wants a connection with the device `r`, whose PDU is for `target` if it is
directed. -/
def Ask.wants (n : Ask) (ah : Hash) (cfg : Config) (c : Call) (directed : Bool) (r target : AddressWithType) : Prop :=
  (match c.policy with
   | .usePeerAddress => r = c.peer
   | .useFilterAcceptListWithPeerAddress => n.listed r
   | .useDecisionPdus => False
   | .useFilterAcceptListWithDecisionPdus => False) ∧
  (directed = true → (n.ours cfg target ∨ n.forUs ah r target) ∧
    (c.own = .resolvableOrPublic ∨ c.own = .resolvableOrRandom → RpaForm target))

/-- The packet is one that the host has heard and does not want to hear again. -/
def Scan.again (r : Scan) (p : Packet) : Prop := r.filter ≠ .disabled ∧ p ∈ r.heard

end Verif.Ll
