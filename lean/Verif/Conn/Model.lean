import Verif.Addr.Model
/-!
# Connection table

Models `/repo/model/controller/acl_connection_handler.{h,cc}`, `connection_handle.h` and the parts of
`sco_connection.{h,cc}` that concern the life cycle of a SCO connection.

Each `std::unordered_map<uint16_t, C>` is an association list; the order of the list stands for the
(unspecified) iteration order. Handles are `Nat`; theorem `C05_handle_in_range` shows they stay below
2^16, so no 16-bit overflow is hidden.
-/

namespace Verif.Conn
open Verif.Addr

/-- Start and end of the handle ranges, connection_handle.h:41-54. -/
def aclStart : Nat := 0x000
def aclEnd : Nat := 0x0FF
def scoStart : Nat := 0x100
def scoEnd : Nat := 0x1FF
def leStart : Nat := 0x200
def leEnd : Nat := 0x2FF

/-- `AddressWithType`, address_with_type.h:37-44; the type is the enum value. -/
structure TypedAddress where
  address : Address
  type : Nat
  deriving DecidableEq, Repr

/-- `bluetooth::hci::Role`. -/
inductive Role where
  | central | peripheral
  deriving DecidableEq, Repr

/-- `AclConnection` as built at acl_connection_handler.cc:86-87 (encryption, RSSI and link policy
members are not modelled). -/
structure AclConn where
  address : Address
  own : Address
  role : Role
  deriving DecidableEq, Repr

/-- `LeAclConnection` as built at acl_connection_handler.cc:99-100 (connection parameters, subrate
parameters and timers are not modelled). -/
structure LeConn where
  address : TypedAddress
  own : TypedAddress
  resolved : TypedAddress
  role : Role
  deriving DecidableEq, Repr

/-- `ScoState`, sco_connection.h:71-77. -/
inductive ScoState where
  | closed | pending | sentEsco | sentSco | opened
  deriving DecidableEq, Repr

/-- `ScoConnection`, sco_connection.h:84-133, without the negotiated parameters (see `Verif.Sco`).
`spoofed` is `datapath_ == SPOOFED`; `stream` is `stream_handle_.has_value()`. -/
structure ScoConn where
  address : Address
  state : ScoState
  spoofed : Bool
  legacy : Bool
  stream : Bool
  deriving DecidableEq, Repr

/-- An `unordered_map` from handles. -/
abbrev Table (C : Type) := List (Nat × C)

/-- `find`. -/
def find {C : Type} (t : Table C) (h : Nat) : Option C :=
  match t with
  | [] => none
  | (k, c) :: t => if k = h then some c else find t h

/-- `erase(key)`. -/
def erase {C : Type} (t : Table C) (h : Nat) : Table C := t.filter (fun e => e.1 ≠ h)

/-- The `while` loop of `GetUnusedHandle`, acl_connection_handler.cc:42-46. `fuel` bounds the number
of iterations: `none` when it is exhausted. The caller passes the size of the range, after which `last`
has visited every handle of the range and would repeat for ever. -/
def searchUnused {C : Type} (t : Table C) (start stop : Nat) : Nat → Nat → Option Nat
  | last, fuel =>
    match find t last with
    | none => some last
    | some _ =>
      match fuel with
      | 0 => none
      | fuel + 1 => searchUnused t start stop (if last + 1 > stop then start else last + 1) fuel
termination_by _ fuel => fuel

/-- `GetUnusedHandle`, acl_connection_handler.cc:39-54: the handle and the new value of `last`.
`none` is non-termination. -/
def getUnusedHandle {C : Type} (t : Table C) (start stop last : Nat) : Option (Nat × Nat) :=
  match searchUnused t start stop last (stop - start + 1) with
  | none => none
  | some h => some (h, if h + 1 > stop then start else h + 1)

/-- `AclConnectionHandler`, acl_connection_handler.h:102-109. -/
structure Handler where
  acl : Table AclConn
  le : Table LeConn
  sco : Table ScoConn
  lastAcl : Nat
  lastLe : Nat
  lastSco : Nat
  deriving Repr

/-- Initial values, acl_connection_handler.h:103-109. -/
def Handler.init : Handler :=
  { acl := [], le := [], sco := [], lastAcl := aclStart, lastLe := leStart, lastSco := scoStart }

/-- Result of an operation: `abort` is a failed `ASSERT`, `hang` an endless loop. -/
inductive Res (α : Type) where
  | abort
  | hang
  | ok (a : α) (s : Handler)
  deriving Repr

/-- `CreateConnection`, acl_connection_handler.cc:83-89. -/
def createAcl (s : Handler) (addr own : Address) : Res Nat :=
  match getUnusedHandle s.acl aclStart aclEnd s.lastAcl with
  | none => .hang
  | some (h, last) => .ok h { s with acl := (h, ⟨addr, own, .central⟩) :: s.acl, lastAcl := last }

/-- `CreateLeConnection`, acl_connection_handler.cc:91-102. -/
def createLe (s : Handler) (addr resolved own : TypedAddress) (role : Role) : Res Nat :=
  match getUnusedHandle s.le leStart leEnd s.lastLe with
  | none => .hang
  | some (h, last) => .ok h { s with le := (h, ⟨addr, own, resolved, role⟩) :: s.le, lastLe := last }

/-- `CreateScoConnection`, acl_connection_handler.cc:171-177. -/
def createSco (s : Handler) (addr : Address) (state : ScoState) (spoofed legacy : Bool) : Res Nat :=
  match getUnusedHandle s.sco scoStart scoEnd s.lastSco with
  | none => .hang
  | some (h, last) =>
    .ok h { s with sco := (h, ⟨addr, state, spoofed, legacy, false⟩) :: s.sco, lastSco := last }

/-- The first entry in iteration order that satisfies a predicate; used by all lookups by address. -/
def firstWith {C : Type} (p : C → Bool) : Table C → Option (Nat × C)
  | [] => none
  | (h, c) :: t => if p c then some (h, c) else firstWith p t

/-- `GetAclConnectionHandle`, acl_connection_handler.cc:125-133. -/
def getAclHandle (s : Handler) (addr : Address) : Option Nat :=
  (firstWith (fun c => c.address = addr) s.acl).map (·.1)

/-- `GetLeAclConnectionHandle`, acl_connection_handler.cc:135-144. -/
def getLeHandle (s : Handler) (loc remote : Address) : Option Nat :=
  (firstWith (fun c => c.address.address = remote && c.own.address = loc) s.le).map (·.1)

/-- `GetScoConnectionHandle`, acl_connection_handler.cc:146-154. -/
def getScoHandle (s : Handler) (addr : Address) : Option Nat :=
  (firstWith (fun c => c.address = addr) s.sco).map (·.1)

/-- `HasScoHandle`, `HasAclHandle`, `HasLeAclHandle`, acl_connection_handler.cc:71-81. -/
def hasSco (s : Handler) (h : Nat) : Bool := (find s.sco h).isSome
def hasAcl (s : Handler) (h : Nat) : Bool := (find s.acl h).isSome
def hasLe (s : Handler) (h : Nat) : Bool := (find s.le h).isSome

/-- `Disconnect`, acl_connection_handler.cc:104-123. `StopStream` (sco_connection.cc:299-304) clears
the stream handle first, so the destructor's assertion (sco_connection.cc:31) holds. -/
def disconnect (s : Handler) (h : Nat) : Res Bool :=
  if hasSco s h then .ok true { s with sco := erase s.sco h }
  else
    match find s.acl h with
    | some c =>
      if (getScoHandle s c.address).isSome then .abort
      else .ok true { s with acl := erase s.acl h }
    | none =>
      if hasLe s h then .ok true { s with le := erase s.le h }
      else .ok false s

/-- `HasPendingScoConnection`, acl_connection_handler.cc:179-188. -/
def hasPendingSco (s : Handler) (addr : Address) : Bool :=
  match firstWith (fun c => c.address = addr) s.sco with
  | none => false
  | some (_, c) => c.state = .pending || c.state = .sentEsco || c.state = .sentSco

/-- `CancelPendingScoConnection`, acl_connection_handler.cc:208-215. Erasing an entry that still
has a stream fails the assertion of the destructor, sco_connection.cc:31. -/
def cancelPendingSco (s : Handler) (addr : Address) : Res Unit :=
  match firstWith (fun c => c.address = addr) s.sco with
  | none => .ok () s
  | some (h, c) => if c.stream then .abort else .ok () { s with sco := erase s.sco h }

/-- Assignment through the reference `sco_connections_[h]`. -/
def setSco (t : Table ScoConn) (h : Nat) (c : ScoConn) : Table ScoConn :=
  t.map (fun e => if e.1 = h then (h, c) else e)

/-- `StartStream`, sco_connection.cc:292-297; `none` is the failed assertion. -/
def startStream (c : ScoConn) : Option ScoConn :=
  if c.stream then none else some { c with stream := c.spoofed }

/-- The two `AcceptPendingScoConnection`, acl_connection_handler.cc:217-246. The overload taking link
parameters always succeeds (`negotiated = true`); in the other one `negotiated` is the result of
`NegotiateLinkParameters`, modelled in `Verif.Sco`. -/
def acceptPendingSco (s : Handler) (addr : Address) (negotiated : Bool) : Res Bool :=
  match firstWith (fun c => c.address = addr) s.sco with
  | none => .ok false s
  | some (h, c) =>
    if negotiated then
      match startStream { c with state := .opened } with
      | none => .abort
      | some c' => .ok true { s with sco := setSco s.sco h c' }
    else .ok false { s with sco := setSco s.sco h { c with state := .closed } }

/-- `Reset`, acl_connection_handler.cc:56-69. -/
def resetHandler (_s : Handler) : Handler := Handler.init

/-- The public mutating operations. -/
inductive Op where
  | createAcl (addr own : Address)
  | createLe (addr resolved own : TypedAddress) (role : Role)
  | createSco (addr : Address) (state : ScoState) (spoofed legacy : Bool)
  | disconnect (h : Nat)
  | cancelPendingSco (addr : Address)
  | acceptPendingSco (addr : Address) (negotiated : Bool)
  | reset

/-- State after an operation, `none` if it aborts or does not terminate. -/
def step (s : Handler) : Op → Option Handler
  | .createAcl a o => match createAcl s a o with | .ok _ s => some s | _ => none
  | .createLe a r o role => match createLe s a r o role with | .ok _ s => some s | _ => none
  | .createSco a st sp l => match createSco s a st sp l with | .ok _ s => some s | _ => none
  | .disconnect h => match disconnect s h with | .ok _ s => some s | _ => none
  | .cancelPendingSco a => match cancelPendingSco s a with | .ok _ s => some s | _ => none
  | .acceptPendingSco a n => match acceptPendingSco s a n with | .ok _ s => some s | _ => none
  | .reset => some (resetHandler s)

/-- A history of operations, `none` as soon as one of them aborts or hangs. -/
def run (s : Handler) : List Op → Option Handler
  | [] => some s
  | op :: ops => match step s op with | none => none | some s' => run s' ops

end Verif.Conn
