import Verif.Br.Spec
/-!
# What a host told its controller, for C108

The notes a host can keep about its commands and the events it got: whether the device shall answer inquiries and pages, to which
access codes, what it tells others about itself, and with whom the roles may be switched. Nothing here looks into the controller.
-/
namespace Verif.Br

/-- `policies` are the link policies of the connections by handle, newest first. -/
structure Wish where
  inquiryScan : Bool
  pageScan : Bool
  codes : List Nat
  self : Info
  policy : Nat
  policies : List (Nat × Nat)
  deriving DecidableEq, Repr

/-- After Reset: the device can not be found or connected, has the general inquiry access code 0x9E8B33 (its last byte), and allows
nothing. -/
def Wish.first (self : Info) : Wish := ⟨false, false, [0x33], self, 0, []⟩

/-- Before the first command: the same, but there is no inquiry access code (`C108_new_violated`). -/
def Wish.new (self : Info) : Wish := ⟨false, false, [], self, 0, []⟩

/-- What Reset leaves of the description of a device: no class, name, inquiry response and host features. -/
def Info.plain (i : Info) : Info := { i with cod := 0, name := List.replicate 248 0, eir := List.replicate 240 0, hostFeatures := 0 }

/-- The handle of a new connection with a device. -/
def connHandle : Ev → Option Nat
  | .connComplete 0 h _ .acl => some h
  | _ => none

/-- The handles of the new connections with devices an event tells of, when it follows an Accept Connection Request or the
answer to a page. -/
def newHandles (x : Seen) : List Nat :=
  match x.act with
  | .cmd (.accept _ _) | .packet _ _ _ (.pageRsp _) => x.ev.filterMap connHandle
  | _ => []

/-- The notes after a step, for a controller that knows `codes` access codes at a time. -/
def wish (codes : Nat) (w : Wish) (x : Seen) : Wish :=
  match x.act with
  | .cmd (.writeScanEnable i p) => { w with inquiryScan := i, pageScan := p }
  | .cmd (.writeIac l) => { w with codes := l.take codes }
  | .cmd (.setInfo i) => { w with self := i }
  | .cmd (.writeDefaultPolicy p) => if x.status = 0 then { w with policy := p } else w
  | .cmd (.writePolicy h p) => if x.status = 0 then { w with policies := (h, p) :: w.policies } else w
  | .cmd .reset => .first w.self.plain
  | _ => { w with policies := (newHandles x).map (fun h => (h, w.policy)) ++ w.policies }

/-- The notes after a history. -/
def wishes (codes : Nat) (self : Info) (l : List Seen) : Wish := l.foldl (wish codes) (.new self)

/-- The link policy of a connection. -/
def Wish.policyOf (w : Wish) (h : Nat) : Option Nat := (w.policies.find? (fun e => e.1 = h)).map Prod.snd

/-- How a device answers an inquiry with an access code, in the format that is asked for: 0 the class of device, 1 with the signal
strength, 2 with the extended inquiry response as well. -/
def Wish.foundAs (w : Wish) (src format lap rssi : Nat) : List (Nat × Pkt) :=
  if w.inquiryScan && w.codes.contains lap then
    match format with
    | 0 => [(src, .inqRsp 0 w.self.cod 0 [])]
    | 1 => [(src, .inqRsp 1 w.self.cod rssi [])]
    | 2 => [(src, .inqRsp 2 w.self.cod rssi w.self.eir)]
    | _ => []
  else []

end Verif.Br
