import Verif.Ll.Model

/-!
# The project's tests of the LE link layer, replayed on the model

From `/repo/test/LL/scan_*.py`, `/repo/test/LL/DDI/SCN/*.py`, `/repo/test/LL/CON_/INI/*.py`
and some of `/repo/test/LL/DDI/ADV/*.py`. Each example runs one test on a new controller
with the address 11:11:11:11:11:11: the commands, and the packets the tester sends. It
checks the status of every command, and that the events and the packets sent in answer
are those that the test expects, and no others. These are tests of the model, not claims
about it: they show that the model answers as the code is tested to answer.

The tests draw random bytes and random addresses; here they are fixed. The encryption is
replaced by an exclusive or, and time by the values of the ticks.
-/

namespace Verif.Ll.Vectors
open Verif.Le

/-- Stands for the encryption. -/
def ah : Hash := fun k p => k.extractLsb' 0 24 ^^^ p

/-- An address generated from a key, and the draws. -/
def rpa (n : Nat) (k : Irk) : Address := makeRpa ah ⟨n, 2, 3, 4⟩ k

def key (n : Nat) : Irk := BitVec.ofNat 128 (n * 0x01010101010101010101010101010101)

def own : Address := 0x111111111111
def cfg : Config := { Config.default with publicAddress := own }

def pub (a : Address) : AddressWithType := ⟨a, .publicDevice⟩
def rand (a : Address) : AddressWithType := ⟨a, .randomDevice⟩

/-- A step of a test: what is done, the status, the events and the packets expected. -/
structure Line where
  op : Op
  status : Option Status := none
  events : List Out := []
  packets : List Packet := []

def packetsOf (l : List Out) : List Packet := l.filterMap fun | .send p => some p | _ => none
def eventsOf (l : List Out) : List Out := l.filter fun | .send _ => false | _ => true

def agreesFrom : State → List Line → Bool
  | _, [] => true
  | s, l :: ls =>
    match step ah cfg s l.op with
    | .ok (s, o) =>
      o.status == l.status && eventsOf o.out == l.events && packetsOf o.out == l.packets && agreesFrom s ls
    | _ => false

/-- The test passes. -/
def passes (ls : List Line) : Bool := agreesFrom (initial none) ls

/-- A command that succeeds. -/
def cmd (c : Cmd) : Line := { op := .cmd c, status := some .success }

/-- A packet of the tester, at a time, and what is expected. -/
def air (p : Packet) (events : List Out := []) (packets : List Packet := []) (now : Nat := 0) : Line :=
  { op := .receive (rpa 7) now p, events := events, packets := packets }

def scanOn : Line := cmd (.setScanEnable true false)
def scanOff : Line := cmd (.setScanEnable false false)

/-- ADV_SCAN_IND, the report of it, and the request. -/
def advScan (a : Address) (d : List UInt8) (now : Nat := 0) : Line :=
  air (.legacyAdv ⟨rand a, pub 0, .advScanInd, d⟩) [.legacyReport (.pdu .advScanInd) (rand a) d] [.scan (pub own) (rand a)] now

def response (a : Address) (d : List UInt8) (events : List Out) : Line :=
  air (.scanResponse (rand a) own d) events

def peer : Address := 0xaabbccddeeff

def scanParameters (t : ScanType) (o : OwnAddressType) (p : ScanFilterPolicy) : Line :=
  cmd (.setScanParameters t 0x2000 0x200 o p)

/-- test/LL/scan_collision.py -/
example : passes [
    scanParameters .active .resolvableOrPublic .acceptAll, scanOn,
    advScan peer [],
    scanOff,
    response peer [] [],
    scanOn,
    advScan peer [],
    response peer [] [.legacyReport .scanResponse (rand peer) []]] = true := by
  decide +kernel

/-- test/LL/scan_concurrency.py -/
example : passes [
    scanParameters .active .resolvableOrPublic .acceptAll, scanOn,
    advScan 0xaabbccddee01 [1],
    advScan 0xaabbccddee02 [2],
    response 0xaabbccddee01 [1] [.legacyReport .scanResponse (rand 0xaabbccddee01) [1]],
    response 0xaabbccddee02 [2] [.legacyReport .scanResponse (rand 0xaabbccddee02) [2]]] = true := by
  decide +kernel

/-- test/LL/scan_timeout.py -/
example : passes [
    scanParameters .active .resolvableOrPublic .acceptAll, scanOn,
    advScan peer [],
    { op := .tick 1000000 },
    advScan peer [] 1000000,
    response peer [] [.legacyReport .scanResponse (rand peer) []]] = true := by
  decide +kernel

/-- Without the second of waiting the second request is not sent. -/
example : passes [
    scanParameters .active .resolvableOrPublic .acceptAll, scanOn,
    advScan peer [],
    { op := .tick 100000 },
    advScan peer [] 100000] = false := by
  decide +kernel

/-! ### test/LL/DDI/SCN -/

/-- ADV_NONCONN_IND. -/
def nonconn (a : Address) (d : List UInt8) (from' : AddressWithType) : Line :=
  air (.legacyAdv ⟨rand a, pub 0, .advNonconnInd, d⟩) [.legacyReport (.pdu .advNonconnInd) from' d]

/-- The commands of the privacy tests. -/
def privacy (peerKey localKey : Irk) (a : Address) : List Line :=
  [cmd (.addResolving .pub a peerKey localKey), cmd (.setRpaTimeout 0x10), cmd (.setAddressResolutionEnable true)]

/-- test/LL/DDI/SCN/BV_13_C.py -/
example : passes (privacy (key 1) 0 peer ++ [
    scanParameters .passive .resolvableOrPublic .acceptAll, scanOn,
    nonconn (rpa 1 (key 1)) [1, 2, 3] (pub peer),
    scanOff,
    cmd (.setAddressResolutionEnable false),
    scanOn,
    nonconn (rpa 1 (key 1)) [1, 2, 3] (rand (rpa 1 (key 1))),
    scanOff]) = true := by
  decide +kernel

/-- test/LL/DDI/SCN/BV_14_C.py -/
example : passes [
    cmd (.setRandomAddress (rpa 1 (key 2))), cmd (.setRpaTimeout 0x10),
    scanParameters .passive .random .checkInitiatorsIdentity, scanOn,
    air (.legacyAdv ⟨rand (rpa 1 (key 1)), rand (rpa 2 (key 2)), .advDirectInd, [1, 2, 3]⟩)
      [.directedReport (rand (rpa 1 (key 1))) (rpa 2 (key 2))],
    scanOff] = true := by
  decide +kernel

/-- test/LL/DDI/SCN/BV_18_C.py -/
example : passes (cmd (.setRandomAddress 0xaabbccddeec0) :: privacy (key 1) (key 2) 0xaabbccddffc0 ++ [
    scanParameters .active .resolvableOrRandom .acceptAll, scanOn,
    air (.legacyAdv ⟨rand (rpa 1 (key 1)), pub 0, .advScanInd, [1, 2, 3]⟩)
      [.legacyReport (.pdu .advScanInd) (pub 0xaabbccddffc0) [1, 2, 3]]
      [.scan (rand (rpa 7 (key 2))) (rand (rpa 1 (key 1)))],
    air (.scanResponse (rand (rpa 1 (key 1))) (rpa 7 (key 2)) [4, 5, 6])
      [.legacyReport .scanResponse (pub 0xaabbccddffc0) [4, 5, 6]]]) = true := by
  decide +kernel

/-- The address of the request is resolvable. -/
example : isRpa (rand (rpa 7 (key 2))) = true := by decide +kernel

/-- Random data. -/
def noise (n : Nat) : List UInt8 := (List.range n).map fun i => UInt8.ofNat (i * 37 + 11)

def tester : Address := 0xcafecafe0001

def extScan (t : ScanType) (now duration : Nat) : List Line :=
  [cmd (.setExtendedScanParameters .pub .acceptAll 1 [⟨t, 0x10, 0x10⟩]),
   cmd (.setExtendedScanEnable now true .disabled duration 0)]

def extOff : Line := cmd (.setExtendedScanEnable 0 false .disabled 0 0)

/-- The pieces of the data that the tests expect. -/
def pieces (max : Nat) (d : List UInt8) : List (Bool × List UInt8) :=
  let n := if d.length ≤ max then 1 else (d.length + max - 1) / max
  (List.range n).map fun i => (decide (d.length - i * max ≤ max), (d.drop (i * max)).take max)

/-- The PDU of a round of BV_19 and BV_20: the properties, the target, the data. -/
def roundPdu (props : Nat) (target : Option Address) (sid : Nat) (d : List UInt8) : Packet :=
  if props.testBit 4 then
    .legacyAdv ⟨pub tester, pub (target.getD 0),
      (if props = 0x13 then .advInd else if props = 0x15 then .advDirectInd else if props = 0x12 then .advScanInd else .advNonconnInd), d⟩
  else
    .extAdv ⟨pub tester, pub (target.getD 0), props.testBit 0, props.testBit 1, target.isSome, sid, .le1m, .noPackets, 0, d⟩

/-- The reports expected. -/
def roundReports (props : Nat) (target : Option Address) (sid : Nat) (response : Bool) (d : List UInt8) : List Out :=
  (pieces 229 d).map fun f =>
    .extReport { connectable := props.testBit 0, scannable := props.testBit 1, directed := target.isSome, scanResponse := response, legacy := props.testBit 4, address := pub tester, primary := .le1m, secondary := .noPackets, sid := if props.testBit 4 then 0xff else sid, interval := 0, direct := target.map pub, complete := f.1, data := f.2 }

/-- A round of BV_19: three PDUs. -/
def round19 (duration props : Nat) (target : Option Address) (n : Nat) : List Line :=
  extScan .passive 0 duration ++
  ([3, 0, 15].map fun sid => air (roundPdu props target sid (noise n))
    (if target.any (fun t => decide (t ≠ own)) then [] else roundReports props target sid false (noise n))) ++
  (if duration > 0 then [{ op := .tick (duration * 10000), events := [.scanTimeout] }] else [extOff])

/-- test/LL/DDI/SCN/BV_19_C.py -/
example : passes (
    round19 0 0x13 none 0 ++ round19 0 0x13 none 31 ++
    round19 0 0x15 (some own) 0 ++ round19 0 0x15 (some 0x112233445566) 0 ++
    round19 0 0x10 none 0 ++ round19 0 0x10 none 31) = true := by
  decide +kernel

example : passes (
    round19 0 0x0 none 0 ++ round19 0 0x0 (some own) 0 ++ round19 0 0x0 (some 0x112233445566) 0 ++
    round19 0 0x0 none 191 ++ round19 0 0x0 none 382 ++ round19 0x1f4 0x0 (some own) 0 ++
    round19 0 0x0 none 31 ++ round19 0 0x0 none 1645) = true := by
  decide +kernel

/-- A round of BV_20: the report, the request, the reports of the answer. The test expects
the set identifier 0xff for the answer, of whatever kind. -/
def round20 (props : Nat) (target : Option Address) (n : Nat) : List Line :=
  extScan .active 0 0 ++
  ([3, 0, 15].flatMap fun sid =>
    if target.any (fun t => decide (t ≠ own)) then [air (roundPdu props target sid [])]
    else
      [air (roundPdu props target sid []) (roundReports props target sid false []) [.scan (pub own) (pub tester)],
       air (.scanResponse (pub tester) own (noise n)) (roundReports props none 0xff true (noise n))]) ++
  [extOff]

/-- test/LL/DDI/SCN/BV_20_C.py -/
example : passes (
    round20 0x13 none 0 ++ round20 0x13 none 31 ++ round20 0x12 none 0 ++ round20 0x12 none 31) = true := by
  decide +kernel

example : passes (
    round20 0x2 none 1 ++ round20 0x2 (some own) 1 ++ round20 0x2 (some 0x112233445566) 1 ++
    round20 0x2 none 191 ++ round20 0x2 none 382 ++ round20 0x2 none 1647) = true := by
  decide +kernel

/-- test/LL/DDI/SCN/BV_79_C.py -/
example : passes (
    extScan .passive 0 0 ++
    (List.replicate 3 (air (.extAdv ⟨pub 0x112233445566, pub 0, false, false, false, 3, .le1m, .noPackets, 0x100, []⟩)
      [.extReport { connectable := false, scannable := false, directed := false, scanResponse := false, legacy := false, address := pub 0x112233445566, primary := .le1m, secondary := .noPackets, sid := 3, interval := 0x100, direct := none, complete := true, data := [] }])) ++
    [cmd (.createSync ⟨false, false, false⟩ ⟨.pub, 0x112233445566, 3⟩ (6 * 0x100) 0),
     air (.periodic ⟨pub 0x112233445566, 3, 0x100, []⟩) [.syncEstablished 0 3 (pub 0x112233445566) 0x100]] ++
    (List.replicate 3 (air (.periodic ⟨pub 0x112233445566, 3, 0x100, noise 256⟩)
      ((pieces 247 (noise 256)).map fun f => .periodicReport 0 f.1 f.2)))) = true := by
  decide +kernel

/-! ### test/LL/CON_/INI -/

/-- LE Create Connection to the peer. -/
def create (o : OwnAddressType) : Line :=
  cmd (.createConnection (rpa 5) .usePeerAddress (pub peer) o ⟨0x2000, 0x200, 0x200, 0x200, 6, 0xc80, 0, 0⟩)

def params : LinkParams := ⟨0x200, 6, 0xc80⟩

/-- The connection is made and ended by the tester, who uses one address. -/
def connects (mine theirs resolved : AddressWithType) : List Line :=
  [air (.connectComplete mine theirs params) [.connected 0x200 ⟨theirs, mine, resolved, .central, params⟩],
   air (.link theirs.address mine.address (.disconnect 0x13)) [.disconnected 0x200 0x13]]

/-- test/LL/CON_/INI/BV_08_C.py -/
example : passes (privacy 0 (key 1) peer ++ [create .resolvableOrPublic,
    air (.legacyAdv ⟨pub peer, pub 0, .advInd, [1, 2, 3]⟩) [] [.connect (rand (rpa 7 (key 1))) (pub peer) params]] ++
    connects (rand (rpa 7 (key 1))) (pub peer) (pub 0)) = true := by
  decide +kernel

/-- test/LL/CON_/INI/BV_09_C.py -/
example : passes (privacy (key 2) (key 1) peer ++ [create .resolvableOrPublic,
    air (.legacyAdv ⟨rand (rpa 1 (key 3)), pub 0, .advInd, [1, 2, 3]⟩),
    air (.legacyAdv ⟨rand (rpa 1 (key 2)), pub 0, .advInd, [1, 2, 3]⟩) []
      [.connect (rand (rpa 7 (key 1))) (rand (rpa 1 (key 2))) params]] ++
    connects (rand (rpa 7 (key 1))) (rand (rpa 1 (key 2))) (pub peer)) = true := by
  decide +kernel

/-- test/LL/CON_/INI/BV_10_C.py -/
example : passes (privacy (key 2) 0 peer ++ [create .pub,
    air (.legacyAdv ⟨rand (rpa 1 (key 3)), pub own, .advDirectInd, [1, 2, 3]⟩),
    air (.legacyAdv ⟨rand (rpa 1 (key 2)), pub own, .advDirectInd, [1, 2, 3]⟩) []
      [.connect (pub own) (rand (rpa 1 (key 2))) params]] ++
    connects (pub own) (rand (rpa 1 (key 2))) (pub peer)) = true := by
  decide +kernel

/-- test/LL/CON_/INI/BV_11_C.py -/
example : passes (privacy (key 2) (key 1) peer ++ [create .resolvableOrPublic,
    air (.legacyAdv ⟨rand (rpa 1 (key 2)), rand (rpa 2 (key 3)), .advDirectInd, [1, 2, 3]⟩),
    air (.legacyAdv ⟨rand (rpa 1 (key 2)), rand (rpa 2 (key 1)), .advDirectInd, [1, 2, 3]⟩) []
      [.connect (rand (rpa 7 (key 1))) (rand (rpa 1 (key 2))) params]] ++
    connects (rand (rpa 7 (key 1))) (rand (rpa 1 (key 2))) (pub peer)) = true := by
  decide +kernel

/-! ### test/LL/DDI/ADV -/

def advertise (t : AdvertisingType) (f : AdvertisingFilterPolicy) : Line :=
  cmd (.setAdvertisingParameters ⟨0x200, 0x200, t, .pub, .pub, 0, 7, f⟩)

def advOn (now : Nat) : Line := cmd (.setAdvertisingEnable now (fun n => rpa n) true)
def advOff (now : Nat) : Line := cmd (.setAdvertisingEnable now (fun n => rpa n) false)

/-- A tick, and the PDU expected. -/
def hears (t : PduType) (d : List UInt8) (now : Nat) : Line :=
  { op := .tick now, packets := [.legacyAdv ⟨pub own, pub 0, t, d⟩] }

/-- Some ticks, each with a PDU. -/
def hearsAll (n : Nat) (t : PduType) (d : List UInt8) : List Line :=
  (List.range n).map fun i => hears t d ((i + 1) * 1000000)

/-- test/LL/DDI/ADV/BV_01_C.py to BV_04_C.py, one round each; BV_15_C.py. -/
example : passes ([advertise .advNonconnInd .listedScanAndConnect, cmd (.setAdvertisingData []), advOn 0] ++
    hearsAll 10 .advNonconnInd [] ++ [advOff 0]) = true := by
  decide +kernel

example : passes ([advertise .advInd .listedScanAndConnect, cmd (.setAdvertisingData []), advOn 0] ++
    hearsAll 10 .advInd [] ++ [advOff 0]) = true := by
  decide +kernel

example : passes ([advertise .advNonconnInd .listedScanAndConnect] ++
    ([[1], [], 31 :: List.replicate 30 0, []].flatMap fun d =>
      [cmd (.setAdvertisingData d), advOn 0] ++ hearsAll 10 .advNonconnInd d ++ [advOff 0])) = true := by
  decide +kernel

example : passes ([advertise .advInd .listedScanAndConnect] ++
    ([[1], [], 31 :: List.replicate 30 0, []].flatMap fun d =>
      [cmd (.setAdvertisingData d), advOn 0] ++ hearsAll 10 .advInd d ++ [advOff 0])) = true := by
  decide +kernel

example : passes ([advertise .advScanInd .listedScanAndConnect, cmd (.setAdvertisingData []), advOn 0] ++
    hearsAll 3 .advScanInd [] ++ [advOff 0]) = true := by
  decide +kernel

/-- A scan request for an address and the answer to it. -/
def asks (from' dest : Address) (d : List UInt8) : Line :=
  air (.scan (pub from') (pub dest)) [] (if dest = own then [.scanResponse (pub own) from' d] else [])

/-- Rounds of BV_05 and BV_17. -/
def rounds (n : Nat) (t : PduType) (from' dest : Address) (d : List UInt8) : List Line :=
  [cmd (.setScanResponseData d), advOn 0] ++
  ((List.range n).flatMap fun i => [hears t [] ((i + 1) * 1000000), asks from' dest d]) ++ [advOff 0]

/-- test/LL/DDI/ADV/BV_05_C.py -/
example : passes (advertise .advInd .allDevices ::
    (rounds 10 .advInd peer own [] ++ rounds 10 .advInd peer own (31 :: List.replicate 30 0) ++
     rounds 10 .advInd peer 0x1111111111ee [] ++ rounds 10 .advInd peer 0x1111111111ee (31 :: List.replicate 30 0))) = true := by
  decide +kernel

/-- test/LL/DDI/ADV/BV_17_C.py -/
example : passes (advertise .advScanInd .allDevices ::
    (rounds 3 .advScanInd peer own [] ++ rounds 3 .advScanInd peer own (31 :: List.replicate 30 0) ++
     rounds 3 .advScanInd 0x1111111111ee own [] ++ rounds 3 .advScanInd 0x1111111111ee own (31 :: List.replicate 30 0))) = true := by
  decide +kernel

/-! Connections of the advertiser. -/

def link : LinkParams := ⟨0x200, 0x200, 0x200⟩

/-- The tester connects: the answer and the event. -/
def connectsTo (h : Nat) : Line :=
  air (.connect (pub peer) (pub own) link) [.connected h ⟨pub peer, pub own, pub 0, .peripheral, link⟩]
    [.connectComplete (pub peer) (pub own) link]

/-- test/LL/DDI/ADV/BV_06_C.py -/
example : passes [advertise .advInd .allDevices, advOn 0, hears .advInd [] 1000000,
    connectsTo 0x200,
    { op := .disconnect 0x200 0x13 0x16, events := [.disconnected 0x200 0x16], packets := [.link own peer (.disconnect 0x13)] },
    advOn 1000000, hears .advInd [] 2000000,
    air (.connect (pub peer) (pub 0x1111111111ee) link),
    hears .advInd [] 3000000] = true := by
  decide +kernel

/-- test/LL/DDI/ADV/BV_07_C.py -/
example : passes ([advertise .advInd .allDevices, cmd (.setScanResponseData [0x49, 0x55, 0x54]), advOn 0] ++
    ((List.range 10).flatMap fun i => [hears .advInd [] ((i + 1) * 1000000), asks peer own [0x49, 0x55, 0x54]]) ++
    [hears .advInd [] 11000000, connectsTo 0x200]) = true := by
  decide +kernel

/-- ADV_DIRECT_IND to the tester. -/
def directed (now : Nat) : Line :=
  { op := .tick now, packets := [.legacyAdv ⟨pub own, pub peer, .advDirectInd, []⟩] }

/-- test/LL/DDI/ADV/BV_11_C.py -/
example : passes [
    cmd (.setAdvertisingParameters ⟨0x200, 0x200, .advDirectIndHigh, .pub, .pub, peer, 7, .listedScanAndConnect⟩),
    advOn 0, directed 1000000,
    { op := .tick 2000000, events := [.directedTimeout] },
    { op := .tick 3000000 },
    advOn 3000000, directed 4000000,
    connectsTo 0x200,
    air (.link peer own (.disconnect 0x3e)) [.disconnected 0x200 0x3e]] = true := by
  decide +kernel

/-- test/LL/DDI/ADV/BV_19_C.py -/
example : passes [
    cmd (.setAdvertisingParameters ⟨0x200, 0x200, .advDirectIndLow, .pub, .pub, peer, 7, .listedScanAndConnect⟩),
    advOn 0, directed 1000000, directed 2000000, directed 3000000, directed 4000000,
    connectsTo 0x200,
    air (.link peer own (.disconnect 0x13)) [.disconnected 0x200 0x13]] = true := by
  decide +kernel

end Verif.Ll.Vectors
