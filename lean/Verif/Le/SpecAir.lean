import Verif.Le.SpecAdv
/-!
# What goes on air: specification (C107)

The host keeps notes: it writes down the commands the controller accepted and the
connections and ticks that followed, and from these notes alone foretells what the
controller sends at every tick.
-/

namespace Verif.Le

/-- Notes on a running legacy advertiser: when it was enabled, when it last sent (or was
enabled), and the addresses chosen when it was enabled. -/
structure LegacyRun where
  since : Nat
  last : Nat
  adv : AddressWithType
  target : AddressWithType

/-- Notes on the legacy advertiser: the accepted parameters (1.28 s, ADV_IND, public
address before there are any), the accepted data. The interval is in units of 625 us.
The filter policy and the scan response data are for C112. -/
structure LegacyNotes where
  interval : Nat := 2048
  type : AdvertisingType := .advInd
  own : OwnAddressType := .pub
  peerType : PeerAddressType := .pub
  peer : Address := 0
  policy : AdvertisingFilterPolicy := .allDevices
  data : List UInt8 := []
  response : List UInt8 := []
  running : Option LegacyRun := none

/-- Notes on a running advertising set: when it was enabled, how many events it has
sent, and the limits it was enabled with. -/
structure SetRun where
  since : Nat
  sent : Nat
  duration : Nat
  maxEvents : Nat

/-- Notes on a periodic train: when it was enabled, how many PDUs it has sent, and
whether its advertising set was enabled together with it. -/
structure Train where
  since : Nat
  sent : Nat
  sending : Bool

/-- Notes on an advertising set: the accepted parameters, the random address, the
addresses chosen when the set was last enabled (the target when it was last enabled
for directed advertising), the periodic interval. -/
structure SetNotes where
  params : ExtParams
  random : Option Address := none
  adv : AddressWithType := ⟨0, .publicDevice⟩
  target : AddressWithType := ⟨0, .publicDevice⟩
  running : Option SetRun := none
  periodicInterval : Nat := 0
  train : Option Train := none

/-- The notes of the host. `keys t a` are the peer's and the local key of the resolving
list for the peer. -/
structure Notes where
  random : Address := 0
  keys : PeerAddressType → Address → Option (Irk × Irk) := fun _ _ => none
  legacy : LegacyNotes := {}
  sets : UInt8 → Option SetNotes := fun _ => none

/-- The address to advertise with: the public or random address as asked for, or an
address generated from the local key for the peer when there is one. -/
def ownAddress (own : OwnAddressType) (pub random : Address) (keys : Option (Irk × Irk)) (rnd : Irk → Address) : AddressWithType :=
  match own, keys with
  | .pub, _ => ⟨pub, .publicDevice⟩
  | .random, _ => ⟨random, .randomDevice⟩
  | .resolvableOrPublic, none => ⟨pub, .publicDevice⟩
  | .resolvableOrRandom, none => ⟨random, .randomDevice⟩
  | .resolvableOrPublic, some k => ⟨rnd k.2, .randomDevice⟩
  | .resolvableOrRandom, some k => ⟨rnd k.2, .randomDevice⟩

/-- The address directed advertising is for: the peer's, or an address generated from
the peer's key when there is one. -/
def directedTo (t : PeerAddressType) (a : Address) (keys : Option (Irk × Irk)) (rnd : Irk → Address) : AddressWithType :=
  match keys, t with
  | some k, _ => ⟨rnd k.1, .randomDevice⟩
  | none, .pub => ⟨a, .publicDevice⟩
  | none, .random => ⟨a, .randomDevice⟩

/-- The two directed advertising types. -/
def AdvertisingType.isDirected : AdvertisingType → Bool
  | .advDirectIndHigh => true
  | .advDirectIndLow => true
  | _ => false

/-- The index of an advertising set in a command, and what the command says about it. -/
def place (h : UInt8) : Nat → List EnabledSet → Option (Nat × EnabledSet)
  | _, [] => none
  | i, e :: es => if e.handle = h then some (i, e) else place h (i + 1) es

/-- Change the notes on one set. -/
def Notes.modify (g : Notes) (h : UInt8) (f : SetNotes → SetNotes) : Notes :=
  { g with sets := fun k => if k = h then (g.sets k).map f else g.sets k }

/-- A set is enabled. The addresses generated for the i-th set of the command are the
2i-th and the next one. -/
def SetNotes.start (pub : Address) (now : Nat) (rnd : Nat → Irk → Address) (keys : PeerAddressType → Address → Option (Irk × Irk))
    (i : Nat) (e : EnabledSet) (n : SetNotes) : SetNotes :=
  let k := keys n.params.peerType n.params.peer
  { n with
    adv := ownAddress n.params.own pub (n.random.getD 0) k (rnd (2 * i)),
    target := if n.params.properties.directed then directedTo n.params.peerType n.params.peer k (rnd (2 * i + 1)) else n.target,
    running := some ⟨now, 0, e.duration, e.maxEvents⟩,
    train := n.train.map fun t => { t with sending := true } }

/-- The notes after an accepted command. -/
def accepted (pub : Address) (g : Notes) : Cmd → Notes
  | .setRandomAddress a => { g with random := a }
  | .addResolving t a pk lk => { g with keys := fun t' a' => if t' = t ∧ a' = a then some (pk, lk) else g.keys t' a' }
  | .removeResolving t a => { g with keys := fun t' a' => if t' = t ∧ a' = a then none else g.keys t' a' }
  | .clearResolving => { g with keys := fun _ _ => none }
  | .setAdvertisingParameters p =>
    { g with legacy := { g.legacy with
        interval := if p.type = .advDirectIndHigh then 16 else p.intervalMin, type := p.type, own := p.own, peerType := p.peerType, peer := p.peer, policy := p.policy } }
  | .setAdvertisingData d => { g with legacy := { g.legacy with data := d } }
  | .setScanResponseData d => { g with legacy := { g.legacy with response := d } }
  | .setAdvertisingEnable now rnd true =>
    let k := g.keys g.legacy.peerType g.legacy.peer
    { g with legacy := { g.legacy with
        running := some ⟨now, now, ownAddress g.legacy.own pub g.random k (rnd 0),
          if g.legacy.type.isDirected then directedTo g.legacy.peerType g.legacy.peer k (rnd 1) else ⟨0, .publicDevice⟩⟩ } }
  | .setAdvertisingEnable _ _ false => { g with legacy := { g.legacy with running := none } }
  | .setAdvertisingSetRandomAddress h a => g.modify h fun n => { n with random := some a }
  | .setExtAdvertisingParameters h p =>
    { g with sets := fun k => if k = h then some (match g.sets h with
        | some n => { n with params := p }
        | none => { params := p }) else g.sets k }
  | .setExtAdvertisingEnable now rnd true sets =>
    { g with sets := fun h => match place h 0 sets with
        | some (i, e) => (g.sets h).map (SetNotes.start pub now rnd g.keys i e)
        | none => g.sets h }
  | .setExtAdvertisingEnable _ _ false sets =>
    { g with sets := fun h => if sets = [] ∨ h ∈ sets.map (·.handle) then (g.sets h).map fun n => { n with running := none } else g.sets h }
  | .removeAdvertisingSet h => { g with sets := fun k => if k = h then none else g.sets k }
  | .clearAdvertisingSets => { g with sets := fun _ => none }
  | .setPeriodicParameters h _ imax => g.modify h fun n => { n with periodicInterval := imax }
  | .setPeriodicEnable now true _ h => g.modify h fun n => { n with train := some ⟨now, 0, n.running.isSome⟩ }
  | .setPeriodicEnable _ false _ h => g.modify h fun n => { n with train := none }
  | _ => g

/-! ### What is sent at a tick -/

/-- The legacy advertiser: high duty cycle directed advertising ends after 1.28 s;
otherwise one PDU is sent when the interval has passed since the last one. -/
def LegacyNotes.tick (now : Nat) (n : LegacyNotes) : LegacyNotes × List AdvOut :=
  match n.running with
  | none => (n, [])
  | some r =>
    if n.type = .advDirectIndHigh ∧ r.since + 1280000 ≤ now then ({ n with running := none }, [.directedTimeout])
    else if r.last + n.interval * 625 ≤ now then
      ({ n with running := some { r with last := now } },
       [.legacyPdu none n.type r.adv r.target (if n.type.isDirected then [] else n.data)])
    else (n, [])

/-- The legacy PDU for the event properties of a set. -/
def legacyType (p : EventProperties) : AdvertisingType :=
  match p.connectable, p.scannable, p.directed, p.highDutyCycle with
  | true, true, _, _ => .advInd
  | true, false, _, true => .advDirectIndHigh
  | true, false, _, false => .advDirectIndLow
  | false, true, _, _ => .advScanInd
  | false, false, _, _ => .advNonconnInd

/-- The PDU of a set with this data. -/
def SetNotes.pdu (n : SetNotes) (h : UInt8) (data : List UInt8) : AdvOut :=
  if n.params.properties.legacy then .legacyPdu (some h) (legacyType n.params.properties) n.adv n.target data
  else .extendedPdu h n.adv n.target n.params.properties.connectable n.params.properties.scannable n.params.properties.directed
    n.params.sid n.periodicInterval data

/-- The advertising events of a set. It ends when its duration has passed, or after its
number of events (the events are counted in a byte); otherwise the next PDU is sent
when it is due: the k-th one k intervals after the set was enabled. -/
def SetNotes.tickSet (now : Nat) (h : UInt8) (data : List UInt8) (n : SetNotes) : SetNotes × List AdvOut :=
  match n.running with
  | none => (n, [])
  | some r =>
    let p := n.params.properties
    if 0 < r.duration ∧ r.since + 10000 * r.duration ≤ now then
      ({ n with running := none },
       (if p.connectable ∧ p.directed ∧ p.highDutyCycle then [.directedTimeout] else []) ++
        [.setTerminated h (if r.maxEvents = 0 then 0 else r.sent % 256)])
    else if 0 < r.maxEvents ∧ r.maxEvents ≤ r.sent % 256 then
      ({ n with running := none }, [.setTerminated h (r.sent % 256)])
    else if r.since + r.sent * n.params.intervalMin * 625 ≤ now then
      ({ n with running := some { r with sent := r.sent + 1 } }, [n.pdu h data])
    else (n, [])

/-- The periodic PDUs of a set: the k-th one is due k periodic intervals after periodic
advertising was enabled. -/
def SetNotes.tickTrain (now : Nat) (h : UInt8) (data : List UInt8) (n : SetNotes) : SetNotes × List AdvOut :=
  match n.train with
  | none => (n, [])
  | some t =>
    if t.sending = true ∧ t.since + t.sent * n.periodicInterval * 625 ≤ now then
      ({ n with train := some { t with sent := t.sent + 1 } }, [.periodicPdu h n.adv n.params.sid n.periodicInterval data])
    else (n, [])

/-- Both, in this order. -/
def SetNotes.tick (now : Nat) (h : UInt8) (data periodic : List UInt8) (n : SetNotes) : SetNotes × List AdvOut :=
  let a := n.tickSet now h data
  let b := a.1.tickTrain now h periodic
  (b.1, a.2 ++ b.2)

/-- What is sent for one advertising set; the data are those of C20. -/
def Notes.setSends (g : Notes) (d : Ghost) (now : Nat) (h : UInt8) : List AdvOut :=
  match g.sets h with
  | none => []
  | some n => (n.tick now h (assembled (d.data h)) (assembled (d.periodic h))).2

/-- The notes after a transition that is not a command. -/
def happened (g : Notes) : Env → Notes
  | .tick now => { g with
      legacy := (g.legacy.tick now).1,
      sets := fun h => (g.sets h).map fun n => (n.tick now h [] []).1 }
  | .legacyConnected => { g with legacy := { g.legacy with running := none } }
  | .extendedConnected h => g.modify h fun n => { n with running := none }
  | .reset => {}
  | _ => g

/-- The notes after an operation: refused commands leave them as they are. -/
def note (pub : Address) (g : Notes) (o : Op) (st : Option Status) : Notes :=
  match o with
  | .cmd c => if st = some .success then accepted pub g c else g
  | .env e => happened g e

/-- Run a list of operations and take notes. -/
def runNotes (cfg : Config) : List Op → State → Notes → Ghost → Option (State × Notes × Ghost)
  | [], s, g, d => some (s, g, d)
  | o :: os, s, g, d =>
    match step cfg s o with
    | .ok s' st _ => runNotes cfg os s' (note cfg.publicAddress g o st) (record d o st)
    | .ub => none
    | .fatal => none

/-- The host's notes when the controller starts. -/
def Notes.initial (defaultRandomAddress : Option Address) : Notes := { random := defaultRandomAddress.getD 0 }

/-- A refused LE Set Extended Advertising Enable that lists several sets. -/
def Torn (o : Op) (st : Option Status) : Prop :=
  ∃ now rnd e₁ e₂ es, o = .cmd (.setExtAdvertisingEnable now rnd true (e₁ :: e₂ :: es)) ∧ st ≠ some .success

/-- No step of the run is torn. -/
def Untorn (cfg : Config) : List Op → State → Prop
  | [], _ => True
  | o :: os, s =>
    match step cfg s o with
    | .ok s' st _ => ¬ Torn o st ∧ Untorn cfg os s'
    | .ub => True
    | .fatal => True

/-- What the notes say is sent at a tick: what the legacy advertiser sends, then what
each advertising set sends, in some order of the sets. -/
def Foretold (g : Notes) (d : Ghost) (now : Nat) (out : List AdvOut) : Prop :=
  ∃ order : List UInt8, order.Nodup ∧ (∀ h, h ∈ order ↔ (g.sets h).isSome = true) ∧
    out = (g.legacy.tick now).2 ++ order.flatMap (g.setSends d now)

end Verif.Le
