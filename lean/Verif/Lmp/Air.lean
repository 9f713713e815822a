import Verif.Lmp.PairSpec

/-!
# The conversation of a pairing

What one procedure says and hears, against any peer and any host, from its start to its end. A peer is not assumed to be
another rootcanal, or to follow the protocol.
-/

namespace Verif.Lmp

/-- One thing that a procedure does or gets: it sends something, a command of the host is handed to it, a packet of the peer is
handed to it, one of its packets is accepted or refused, the passkey is typed in or refused. -/
inductive Heard
  | out (o : Out)
  | cmd (c : Cmd)
  | pkt (l : Lmp)
  | verdict (op : Opcode) (ok : Bool)
  | typed (ok : Bool)
  deriving DecidableEq, Repr

/-- The procedure goes through this conversation to its end; the result is the one it ends with. Packets and commands that it does
not take stay where they are (`offer`) and are not part of the conversation; nor are the keypress notifications, which are
answered and otherwise ignored (secure_simple_pairing.rs 226-263), nor answers about other packets, which are dropped. -/
def replay {α : Type} : Prog α → List Heard → Option α
  | .ret a, [] => some a
  | .send o k, .out o' :: t => if o = o' then replay k t else none
  | .recvHci acc k, .cmd c :: t => if acc c.kind then replay (k c) t else none
  | .recvLmp acc k, .pkt l :: t => if acc l then replay (k l) t else none
  | .wait op k, .verdict op' ok :: t => if op = op' then replay (k ok) t else none
  | .passkey k, .typed ok :: t => replay (k ok) t
  | _, _ => none

/-- Where the procedure is after a conversation that it has not come to the end of. -/
def reach {α : Type} : Prog α → List Heard → Option (Prog α)
  | p, [] => some p
  | .send o k, .out o' :: t => if o = o' then reach k t else none
  | .recvHci acc k, .cmd c :: t => if acc c.kind then reach (k c) t else none
  | .recvLmp acc k, .pkt l :: t => if acc l then reach (k l) t else none
  | .wait op k, .verdict op' ok :: t => if op = op' then reach (k ok) t else none
  | .passkey k, .typed ok :: t => reach (k ok) t
  | _, _ => none

/-- The conversation on the air: packets sent, packets received, and answers (accepted or refused) to packets sent. -/
inductive Air
  | tx (l : Lmp)
  | rx (l : Lmp)
  | answer (op : Opcode)
  deriving DecidableEq, Repr

def Heard.air? : Heard → Option Air
  | .out (.lmp l) => some (.tx l)
  | .pkt l => some (.rx l)
  | .verdict op _ => some (.answer op)
  | _ => none

/-- The conversation with the host. -/
inductive Talk
  | event (e : Ev)
  | command (k : Kind)
  | typed (ok : Bool)
  deriving DecidableEq, Repr

def Heard.host? : Heard → Option Talk
  | .out (.hci e) => some (.event e)
  | .cmd c => some (.command c.kind)
  | .typed ok => some (.typed ok)
  | _ => none

def air (t : List Heard) : List Air := t.filterMap Heard.air?
def host (t : List Heard) : List Talk := t.filterMap Heard.host?

/-! ## The protocol: Bluetooth Core, Vol 2, Part C, 4.2.7 and Part H, 7 -/

/-- `n` times the same. -/
def times (n : Nat) (l : List Air) : List Air := (List.replicate n l).flatten

/-- A public key of 48 or 64 octets goes in a header and in payloads of 16 octets. Each of them is accepted. -/
def keySent (p256 : Bool) : List Air :=
  if p256 then [.tx (.encapsulatedHeader 64), .answer .encapsulatedHeader] ++ times 4 [.tx .encapsulatedPayload, .answer .encapsulatedPayload]
  else [.tx (.encapsulatedHeader 48), .answer .encapsulatedHeader] ++ times 3 [.tx .encapsulatedPayload, .answer .encapsulatedPayload]

/-- What the other side sees of it. -/
def Air.mirror : Air → Air
  | .tx (.accepted op) => .answer op
  | .tx l => .rx l
  | .rx l => .tx l
  | .answer op => .tx (.accepted op)

/-- The initiator's nonce, then the responder's. -/
def nonces : List Air := [.tx .number, .answer .simplePairingNumber, .rx .number, .tx (.accepted .simplePairingNumber)]

/-- Authentication, stage 1, of the initiator. With numeric comparison the responder commits itself, then the nonces are shown.
With a passkey both commit themselves to each of its 20 bits in turn. With out-of-band data both commit themselves once.
`confirm true` is a commitment that checks. -/
def stageOne (p q : Params) : List Air :=
  if outOfBand p q then [.tx (.confirm true), .rx (.confirm true)] ++ nonces
  else if entry p q then times 20 ([.tx (.confirm true), .rx (.confirm true)] ++ nonces)
  else .rx (.confirm true) :: nonces

/-- Stage 2 and the mutual authentication with the new key. -/
def stageTwo : List Air :=
  [.tx .dhkeyCheck, .answer .dhkeyCheck, .rx .dhkeyCheck, .tx (.accepted .dhkeyCheck),
    .tx .auRand, .rx .sres, .rx .auRand, .tx .sres]

/-- What the user and the host of the initiator (`own` = `p`) or of the responder (`own` = `q`) are asked. -/
def asked (p q own : Params) : List Talk :=
  if outOfBand p q then
    if own.oob = .notPresent then [] else [.event .remoteOobDataRequest, .command .oobReply, .event (.answer .oobReply .success)]
  else if entry p q then
    if own.io = .keyboardOnly then [.event .userPasskeyRequest, .typed true] else [.event .userPasskeyNotification]
  else [.event .userConfirmationRequest, .command .confirmReply, .event (.answer .confirmReply .success)]

end Verif.Lmp
