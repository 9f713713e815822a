import Verif.Port.Model
import Verif.H4.Spec
import Verif.Pcap.Spec
/-!
# What C82 and C83 talk about

The octets that a host sends and receives, and how a trace file is read.
-/
namespace Verif.Port

open H4 (Kind)

variable {σ : Type}

/-- The packets of the host that the controller has handled, in order. -/
def fromHost (log : List (Dir × Kind × Bytes)) : List Msg := log.filterMap (fun e => match e with
  | (.hostToController, k, p) => some (k, p)
  | (.controllerToHost, _, _) => none)

/-- The packets that the controller has sent to its host, in order. -/
def toHost (log : List (Dir × Kind × Bytes)) : List Msg := log.filterMap (fun e => match e with
  | (.hostToController, _, _) => none
  | (.controllerToHost, k, p) => some (k, p))

/-- The reads of a tick that bring octets: those before the end of the stream. -/
def bringing (reads : List Bytes) : List Bytes := reads.takeWhile (fun c => !c.isEmpty)

/-- The reads of a step that bring octets: if the device is there and its socket open. -/
def heardNow (s : Dev σ) (op : Op σ) : List Bytes := match op with
  | .tick reads _ => if !s.gone && s.up then bringing reads else []
  | _ => []

/-- The reads of a history that bring octets. -/
def heard (net : Net) (ctl : Ctl σ) (s : Dev σ) : List (Op σ) → List Bytes
  | [] => []
  | op :: ops =>
    heardNow s op ++ (match s.step net ctl op with | none => [] | some s' => heard net ctl s' ops)

/-- The type octet of a packet (Core Vol 4 Part A 2). -/
def typeOctet : Kind → UInt8
  | .command => 1
  | .acl => 2
  | .sco => 3
  | .event => 4
  | .iso => 5

/-- The octets of packets on a wire: the type octet, then the packet. -/
def onWire (ms : List Msg) : Bytes := ms.flatMap (fun m => typeOctet m.1 :: m.2)

/-- The unsigned integer in these octets, least significant first. -/
def number : Bytes → Nat
  | [] => 0
  | b :: bs => b.toNat + 256 * number bs

/-- A record of a trace file: the time, in seconds and microseconds, the length of the packet, and what was captured of it. -/
structure Rec where
  seconds : Nat
  micros : Nat
  length : Nat
  data : Bytes
  deriving DecidableEq, Repr

/-- The records of a trace file (draft-gharris-opsawg-pcap, 5). The first number bounds their number. -/
def readRecords : Nat → Bytes → Option (List Rec)
  | _, [] => some []
  | 0, _ :: _ => none
  | n + 1, b :: bs =>
    let l := b :: bs
    let captured := number ((l.drop 8).take 4)
    if l.length < 16 + captured then none
    else match readRecords n (l.drop (16 + captured)) with
      | none => none
      | some rs => some (⟨number (l.take 4), number ((l.drop 4).take 4), number ((l.drop 12).take 4), (l.drop 16).take captured⟩ :: rs)

/-- A trace file (the same, 4), little endian, version 2.4, with times in microseconds: its link type and its records. -/
def readFile (l : Bytes) : Option (Nat × List Rec) :=
  if l.length < 24 ∨ l.take 4 ≠ [0xd4, 0xc3, 0xb2, 0xa1] ∨ number ((l.drop 4).take 2) ≠ 2 ∨ number ((l.drop 6).take 2) ≠ 4 then none
  else match readRecords l.length (l.drop 24) with
    | none => none
    | some rs => some (number ((l.drop 20).take 4), rs)

/-- A record of link type 201 (LINKTYPE_BLUETOOTH_HCI_H4_WITH_PHDR): the direction, four octets with the most significant first,
0 for packets of the host; the type octet; the packet. -/
def captured (d : Dir) (k : Kind) (p : Bytes) : Bytes :=
  0 :: 0 :: 0 :: (match d with | .hostToController => 0 | .controllerToHost => 1) :: onWire [(k, p)]

/-- What a filter shows of the packets, one after the other; all of them if there is none. -/
def shown (filter : Bool) (log : List (Dir × Kind × Bytes)) : Option (List Bytes) :=
  if filter then (Pcap.session [] (log.map (fun e => (e.2.2, typeOctet e.2.1)))).map (·.2)
  else some (log.map (·.2.2))

end Verif.Port
