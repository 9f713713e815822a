/-!
# Procedures of a connected LE link

Models the part of model/controller/le_controller.cc that two connected LE controllers use to choose PHYs, start
encryption, exchange features and versions, and carry data, together with le_acl_connection.{h,cc}.

Simplifications.
* A controller is the table of its LE connections and the members these functions use. How connections are made and
  ended is not part of this model (`Verif.Ll`): the connections stay.
* A packet is addressed by a connection of its sender; the lookup by address pair (le_controller.cc:4121-4130) is done by
  the network below. Packets between two controllers arrive in order.
* `SendLeLinkLayerPacket` and the acknowledgement of data are tasks without delay in the code; here they happen at once.
  The task of `LeEnableEncryption` is kept, since it changes the state.
* The link timer and the RSSI are left out. `PhyOptions` and the instant of LL_PHY_UPDATE_IND are not used by the code.
-/
namespace Verif.Link

/-- `PhyType`: LE_1M, LE_2M, LE_CODED. -/
inductive Phy
  | m1
  | m2
  | coded
  deriving DecidableEq, Repr

/-- `bluetooth::hci::Role`. -/
inductive Role
  | central
  | peripheral
  deriving DecidableEq, Repr

/-- A key, 16 octets. -/
abbrev Key := List UInt8

/-- `LeAclConnection`, le_acl_connection.h:69-127. -/
structure Conn where
  role : Role
  tx : Phy
  rx : Phy
  initiated : Bool
  encrypted : Bool
  ltk : Option Key
  remote : Option Nat
  deriving DecidableEq, Repr

/-- A new connection, le_acl_connection.h:112-126. -/
def Conn.fresh (r : Role) : Conn := ⟨r, .m1, .m1, false, false, none, none⟩

/-- A task of `LeEnableEncryption`. -/
structure Enable where
  handle : Nat
  rand : List UInt8
  ediv : Nat
  ltk : Key
  deriving DecidableEq, Repr

/-- The members of `LeController` used here. `supported` is `properties_.LeSupportedPhys()`, `features` is
`GetLeSupportedFeatures()`. -/
structure Dev where
  conns : Nat → Option Conn
  supported : Nat
  defTx : Nat
  defRx : Nat
  reqTx : Nat
  reqRx : Nat
  features : Nat
  version : Nat
  subversion : Nat
  company : Nat
  mask : Nat
  mask2 : Nat
  leMask : Nat
  tasks : List Enable

/-- Packets of packets/link_layer_packets.pdl. -/
inductive Pkt
  | phyReq (tx rx : Nat)
  | phyRsp (tx rx : Nat)
  | phyInd (cToP pToC : Nat)
  | enc (rand : List UInt8) (ediv : Nat) (ltk : Key)
  | encRsp (st : Nat) (ltk : Key)
  | featReq
  | featRsp (features st : Nat)
  | verReq
  | verRsp (version subversion company : Nat)
  | acl (pb bc : Nat) (data : List UInt8)
  deriving DecidableEq, Repr

/-- Events and data for the host. -/
inductive Ev
  | phyDone (h : Nat) (tx rx : Phy)
  | ltkRequest (h : Nat) (rand : List UInt8) (ediv : Nat)
  | encChange (st h : Nat) (on : Bool)
  | encChangeV2 (st h : Nat) (on : Bool)
  | keyRefresh (st h : Nat)
  | features (st h f : Nat)
  | version (h v company sub : Nat)
  | acl (h pb bc : Nat) (data : List UInt8)
  | completed (h n : Nat)
  deriving DecidableEq, Repr

/-- What the host sends. -/
inductive Cmd
  | setDefaultPhy (anyTx anyRx : Bool) (tx rx : Nat)
  | setPhy (h : Nat) (anyTx anyRx : Bool) (tx rx : Nat)
  | enable (h : Nat) (rand : List UInt8) (ediv : Nat) (ltk : Key)
  | reply (h : Nat) (ltk : Key)
  | negative (h : Nat)
  | readFeatures (h : Nat)
  | readVersion (h : Nat)
  | setMask (m : Nat)
  | setMask2 (m : Nat)
  | setLeMask (m : Nat)
  | acl (h pb bc : Nat) (data : List UInt8)
  deriving DecidableEq, Repr

/-- The result of a step: the status, the new state, the packets with the connection they are sent on, and the events.
Nothing: the controller aborts. -/
structure Out where
  status : Nat
  dev : Dev
  out : List (Nat × Pkt)
  ev : List Ev

/-- Error codes. -/
abbrev unknownConnection := 0x02
abbrev authenticationFailure := 0x05
abbrev keyMissing := 0x06
abbrev unsupported := 0x11
abbrev invalid := 0x12

/-- IsEventUnmasked, le_controller.cc:141-152. -/
def unmasked (d : Dev) (code : Nat) : Bool := if code ≤ 64 then d.mask.testBit (code - 1) else d.mask2.testBit (code - 65)

/-- IsLeEventUnmasked, le_controller.cc:154-157. -/
def leUnmasked (d : Dev) (sub : Nat) : Bool := unmasked d 0x3e && d.leMask.testBit (sub - 1)

/-- `if (b) send_event_(e)`. -/
def tell (b : Bool) (e : Ev) : List Ev := if b then [e] else []

/-- Assignment to a connection. -/
def put (d : Dev) (h : Nat) (c : Conn) : Dev := { d with conns := fun k => if k = h then some c else d.conns k }

/-! ## PHYs -/

/-- The PHYs a host asks for: le_controller.cc:413-433 and 467-487. -/
def wanted (d : Dev) (any : Bool) (phys : Nat) : Nat := if any then d.supported else phys

/-- `(phys & ~supported_phys) != 0`, for eight bits. -/
def beyond (d : Dev) (phys : Nat) : Bool := phys &&& (255 ^^^ d.supported) ≠ 0

/-- LeSetDefaultPhy, le_controller.cc:408-451. -/
def setDefaultPhy (d : Dev) (anyTx anyRx : Bool) (tx rx : Nat) : Option Out :=
  if wanted d anyTx tx = 0 then some ⟨invalid, d, [], []⟩
  else if wanted d anyRx rx = 0 then some ⟨invalid, d, [], []⟩
  else if beyond d (wanted d anyTx tx) then some ⟨unsupported, d, [], []⟩
  else if beyond d (wanted d anyRx rx) then some ⟨unsupported, d, [], []⟩
  else some ⟨0, { d with defTx := wanted d anyTx tx, defRx := wanted d anyRx rx }, [], []⟩

/-- LeSetPhy, le_controller.cc:454-512. The requested PHYs are members of the controller, not of the connection. -/
def setPhy (d : Dev) (h : Nat) (anyTx anyRx : Bool) (tx rx : Nat) : Option Out :=
  match d.conns h with
  | none => some ⟨unknownConnection, d, [], []⟩
  | some c =>
    if wanted d anyTx tx = 0 then some ⟨invalid, d, [], []⟩
    else if wanted d anyRx rx = 0 then some ⟨invalid, d, [], []⟩
    else if beyond d (wanted d anyTx tx) then some ⟨unsupported, d, [], []⟩
    else if beyond d (wanted d anyRx rx) then some ⟨unsupported, d, [], []⟩
    else some ⟨0, { put d h { c with initiated := true } with reqTx := wanted d anyTx tx, reqRx := wanted d anyRx rx },
      [(h, .phyReq (wanted d anyTx tx) (wanted d anyRx rx))], []⟩

/-- `select_phy`, le_controller.cc:515-520. -/
def select (phys : Nat) (current : Phy) : Phy :=
  if phys.testBit 2 then .coded else if phys.testBit 1 then .m2 else if phys.testBit 0 then .m1 else current

/-- `indicate_phy`, le_controller.cc:524-529. -/
def indicate (selected current : Phy) : Nat :=
  if selected = current then 0 else match selected with
    | .coded => 4
    | .m2 => 2
    | .m1 => 1

/-- IncomingLlPhyReq, le_controller.cc:531-578. -/
def onPhyReq (d : Dev) (h : Nat) (c : Conn) (tx rx : Nat) : Option Out :=
  if c.role = .peripheral then some ⟨0, d, [(h, .phyRsp d.defTx d.defRx)], []⟩
  else
    some ⟨0, put d h { c with tx := select (rx &&& d.defTx) c.tx, rx := select (tx &&& d.defRx) c.rx },
      [(h, .phyInd (indicate (select (rx &&& d.defTx) c.tx) c.tx) (indicate (select (tx &&& d.defRx) c.rx) c.rx))],
      tell ((select (rx &&& d.defTx) c.tx ≠ c.tx || select (tx &&& d.defRx) c.rx ≠ c.rx) && leUnmasked d 0x0c)
        (.phyDone h (select (rx &&& d.defTx) c.tx) (select (tx &&& d.defRx) c.rx))⟩

/-- IncomingLlPhyRsp, le_controller.cc:580-617. -/
def onPhyRsp (d : Dev) (h : Nat) (c : Conn) (tx rx : Nat) : Option Out :=
  if c.role = .peripheral then none
  else
    some ⟨0, put d h { c with tx := select (rx &&& d.reqTx) c.tx, rx := select (tx &&& d.reqRx) c.rx, initiated := false },
      [(h, .phyInd (indicate (select (rx &&& d.reqTx) c.tx) c.tx) (indicate (select (tx &&& d.reqRx) c.rx) c.rx))],
      tell (leUnmasked d 0x0c) (.phyDone h (select (rx &&& d.reqTx) c.tx) (select (tx &&& d.reqRx) c.rx))⟩

/-- IncomingLlPhyUpdateInd, le_controller.cc:619-641. -/
def onPhyInd (d : Dev) (h : Nat) (c : Conn) (cToP pToC : Nat) : Option Out :=
  if c.role = .central then none
  else
    some ⟨0, put d h { c with tx := select pToC c.tx, rx := select cToP c.rx, initiated := false }, [],
      tell (leUnmasked d 0x0c && (select pToC c.tx ≠ c.tx || select cToP c.rx ≠ c.rx || c.initiated))
        (.phyDone h (select pToC c.tx) (select cToP c.rx))⟩

/-! ## Encryption -/

/-- LeEnableEncryption, le_controller.cc:6508-6519. -/
def enable (d : Dev) (e : Enable) : Option Out :=
  match d.conns e.handle with
  | none => some ⟨unknownConnection, d, [], []⟩
  | some _ => some ⟨0, { d with tasks := d.tasks ++ [e] }, [], []⟩

/-- The first task, HandleLeEnableEncryption, le_controller.cc:6495-6506. -/
def runTask (d : Dev) : Option Out :=
  match d.tasks with
  | [] => some ⟨0, d, [], []⟩
  | e :: l => match d.conns e.handle with
    | none => some ⟨0, { d with tasks := l }, [], []⟩
    | some c => some ⟨0, { put d e.handle { c with ltk := some e.ltk } with tasks := l }, [(e.handle, .enc e.rand e.ediv e.ltk)], []⟩

/-- LeLongTermKeyRequestReply, le_controller.cc:6521-6552. -/
def reply (d : Dev) (h : Nat) (ltk : Key) : Option Out :=
  match d.conns h with
  | none => some ⟨unknownConnection, d, [], []⟩
  | some c =>
    if c.encrypted then some ⟨0, d, [(h, .encRsp 0 ltk)], tell (unmasked d 0x30) (.keyRefresh 0 h)⟩
    else
      some ⟨0, put d h { c with encrypted := true }, [(h, .encRsp 0 ltk)],
        if unmasked d 0x59 then [.encChangeV2 0 h true] else tell (unmasked d 0x08) (.encChange 0 h true)⟩

/-- LeLongTermKeyRequestNegativeReply, le_controller.cc:6554-6566. -/
def negative (d : Dev) (h : Nat) : Option Out :=
  match d.conns h with
  | none => some ⟨unknownConnection, d, [], []⟩
  | some _ => some ⟨0, d, [(h, .encRsp keyMissing (List.replicate 16 0))], []⟩

/-- IncomingLeEncryptConnection, le_controller.cc:5907-5920. -/
def onEnc (d : Dev) (h : Nat) (c : Conn) (rand : List UInt8) (ediv : Nat) (ltk : Key) : Option Out :=
  some ⟨0, put d h { c with ltk := some ltk }, [], tell (unmasked d 0x3e) (.ltkRequest h rand ediv)⟩

/-- The status of IncomingLeEncryptConnectionResponse, le_controller.cc:5930-5937. -/
def rspStatus (c : Conn) (st : Nat) (ltk : Key) : Nat :=
  if st ≠ 0 then st else match c.ltk with
    | none => 0
    | some k => if ltk ≠ k then authenticationFailure else 0

/-- IncomingLeEncryptConnectionResponse, le_controller.cc:5922-5956. -/
def onEncRsp (d : Dev) (h : Nat) (c : Conn) (st : Nat) (ltk : Key) : Option Out :=
  if c.encrypted then some ⟨0, d, [], tell (unmasked d 0x30) (.keyRefresh (rspStatus c st ltk) h)⟩
  else if rspStatus c st ltk = 0 then
    some ⟨0, put d h { c with encrypted := true }, [], tell (unmasked d 0x08) (.encChange 0 h true)⟩
  else some ⟨0, d, [], tell (unmasked d 0x08) (.encChange (rspStatus c st ltk) h false)⟩

/-! ## Features, version and data -/

/-- LeReadRemoteFeaturesPage0, le_controller.cc:4080-4090, and ReadRemoteVersionInformation, 6387-6396. -/
def ask (d : Dev) (h : Nat) (p : Pkt) : Option Out :=
  match d.conns h with
  | none => some ⟨unknownConnection, d, [], []⟩
  | some _ => some ⟨0, d, [(h, p)], []⟩

/-- IncomingLeReadRemoteFeaturesResponse, le_controller.cc:5966-5980. -/
def onFeatRsp (d : Dev) (h : Nat) (c : Conn) (f st : Nat) : Option Out :=
  some ⟨0, if st = 0 then put d h { c with remote := some f } else d, [], tell (unmasked d 0x3e) (.features st h f)⟩

/-- HandleAcl, le_controller.cc:5398-5431. -/
def sendAcl (d : Dev) (h pb bc : Nat) (data : List UInt8) : Option Out :=
  if bc ≠ 0 then none
  else match d.conns h with
    | none => some ⟨0, d, [], [.completed h 1]⟩
    | some _ => some ⟨0, d, [(h, .acl pb bc data)], [.completed h 1]⟩

/-- One command. -/
def command (d : Dev) : Cmd → Option Out
  | .setDefaultPhy a b tx rx => setDefaultPhy d a b tx rx
  | .setPhy h a b tx rx => setPhy d h a b tx rx
  | .enable h r e k => enable d ⟨h, r, e, k⟩
  | .reply h k => reply d h k
  | .negative h => negative d h
  | .readFeatures h => ask d h .featReq
  | .readVersion h => ask d h .verReq
  | .setMask m => some ⟨0, { d with mask := m }, [], []⟩
  | .setMask2 m => some ⟨0, { d with mask2 := m }, [], []⟩
  | .setLeMask m => some ⟨0, { d with leMask := m }, [], []⟩
  | .acl h pb bc data => sendAcl d h pb bc data

/-- IncomingPacket for a packet of connection `h`, le_controller.cc:4121-4237; 4239-4262 for data; 4264-4289 for versions,
of which the packet carries eight bits of the subversion (link_layer_packets.pdl:280-284); 5958-5964 for features. -/
def receive (d : Dev) (h : Nat) (p : Pkt) : Option Out :=
  match d.conns h with
  | none => some ⟨0, d, [], []⟩
  | some c => match p with
    | .phyReq tx rx => onPhyReq d h c tx rx
    | .phyRsp tx rx => onPhyRsp d h c tx rx
    | .phyInd a b => onPhyInd d h c a b
    | .enc r e k => onEnc d h c r e k
    | .encRsp st k => onEncRsp d h c st k
    | .featReq => some ⟨0, d, [(h, .featRsp d.features 0)], []⟩
    | .featRsp f st => onFeatRsp d h c f st
    | .verReq => some ⟨0, d, [(h, .verRsp d.version (d.subversion % 256) d.company)], []⟩
    | .verRsp v s m => some ⟨0, d, [], tell (unmasked d 0x0c) (.version h v m s)⟩
    | .acl pb bc data => some ⟨0, d, [], [.acl h (if pb = 0 then 2 else pb) bc data]⟩

/-! ## Two connected controllers -/

/-- Two controllers that are connected by one link: `ha` is its handle at A, `hb` at B. The packets of the link on their
way. Each controller may have other connections. -/
structure Net where
  a : Dev
  b : Dev
  ha : Nat
  hb : Nat
  toA : List Pkt
  toB : List Pkt

/-- What can happen: a command, a task, the arrival of the next packet of the link, or any packet of another connection. -/
inductive NAct
  | hostA (c : Cmd)
  | hostB (c : Cmd)
  | taskA
  | taskB
  | arriveA
  | arriveB
  | otherA (h : Nat) (p : Pkt)
  | otherB (h : Nat) (p : Pkt)
  deriving DecidableEq, Repr

/-- The packets of one connection. -/
def over (h : Nat) (out : List (Nat × Pkt)) : List Pkt := out.filterMap (fun o => if o.1 = h then some o.2 else none)

/-- The status of a step and the events of the two hosts. -/
structure Seen where
  act : NAct
  status : Nat
  evA : List Ev
  evB : List Ev
  deriving DecidableEq, Repr

/-- The effect of a step of A, after which `q` is on its way to A. -/
def putA (n : Net) (x : NAct) (q : List Pkt) (o : Out) : Net × Seen :=
  ({ n with a := o.dev, toA := q, toB := n.toB ++ over n.ha o.out }, ⟨x, o.status, o.ev, []⟩)

/-- The effect of a step of B, after which `q` is on its way to B. -/
def putB (n : Net) (x : NAct) (q : List Pkt) (o : Out) : Net × Seen :=
  ({ n with b := o.dev, toB := q, toA := n.toA ++ over n.hb o.out }, ⟨x, o.status, [], o.ev⟩)

/-- One step. Nothing: a controller aborts. -/
def nstep (n : Net) (x : NAct) : Option (Net × Seen) := match x with
  | .hostA c => (command n.a c).map (putA n x n.toA)
  | .hostB c => (command n.b c).map (putB n x n.toB)
  | .taskA => (runTask n.a).map (putA n x n.toA)
  | .taskB => (runTask n.b).map (putB n x n.toB)
  | .arriveA => match n.toA with
    | [] => some (n, ⟨x, 0, [], []⟩)
    | p :: q => (receive n.a n.ha p).map (putA n x q)
  | .arriveB => match n.toB with
    | [] => some (n, ⟨x, 0, [], []⟩)
    | p :: q => (receive n.b n.hb p).map (putB n x q)
  | .otherA h p => if h = n.ha then some (n, ⟨x, 0, [], []⟩) else (receive n.a h p).map (putA n x n.toA)
  | .otherB h p => if h = n.hb then some (n, ⟨x, 0, [], []⟩) else (receive n.b h p).map (putB n x n.toB)

/-- A history. -/
def nrun (n : Net) : List NAct → Option (Net × List Seen)
  | [] => some (n, [])
  | x :: xs => match nstep n x with
    | none => none
    | some (n', s) => (nrun n' xs).map (fun r => (r.1, s :: r.2))

end Verif.Link
