import Verif.Br.Spec
/-! # C101: which commands are refused, with the error codes of the Core Specification (Vol 1, Part F)

0x02 unknown connection identifier, 0x0B connection already exists, 0x0C command disallowed, 0x12 invalid HCI command
parameters. 0 is success. -/
namespace Verif.Br

/-- `h` is the handle of an ACL connection. -/
def isAcl (s : Ctl) (h : Nat) : Bool := s.acl.any (fun e => e.1 = h)

/-- A request of the device `a` for a connection waits for an answer. -/
def asks (s : Ctl) (a : Nat) : Bool := s.scan.any (fun p => p.addr = a)

/-- The status of a command. -/
def statusOf (s : Ctl) : Cmd → Nat
  | .inquiry _ length responses =>
    if length = 0 || 48 < length || 255 < responses then 0x12 else if s.inq = none then 0 else 0x0C
  | .inquiryCancel => if s.inq = none then 0x0C else 0
  | .create a _ => if s.page ≠ none then 0x0C else if peers s |>.contains a then 0x0B else if asks s a then 0x0B else 0
  | .cancel a => if s.page.any (fun p => p.addr = a) then 0 else 0x02
  | .accept a _ => if asks s a || syncPending s a then 0 else 0x02
  | .reject a _ => if asks s a then 0 else 0x02
  | .disconnect h _ => if isAcl s h || isSync s h then 0 else 0x02
  | .switchRole a _ => if !(peers s).contains a then 0x02 else if syncs s a = 0 then 0 else 0x0C
  | .writePolicy h policy => if !isAcl s h then 0x02 else if policy ≤ 7 then 0 else 0x12
  | .writeDefaultPolicy policy => if policy ≤ 7 then 0 else 0x12
  | .setupSync h _ _ | .addSco h _ =>
    match s.acl.find? (fun e => e.1 = h) with
    | none => 0x02
    | some e => if syncPending s e.2.addr then 0x0C else 0
  | .acceptSync a _ | .rejectSync a _ => if syncPending s a then 0 else 0x0C
  | .features h | .ext h _ | .version h => if isAcl s h then 0 else 0x02
  | .sco h _ => if isSync s h then 0 else 0x02
  | _ => 0

end Verif.Br
