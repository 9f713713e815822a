/-!
# The Advertising Packet Content Filter (APCF)

Models `DualModeController::LeApcf` (model/controller/dual_mode_controller.cc 2846-3099) and
model/controller/vendor_commands/le_apcf.{h,cc}, for a controller that supports the command.

Simplifications.
* The parameters of a filter other than its index are one list of numbers. The seven lists of conditions have one type:
  an address condition has the address type as `tag` and the address as `data`; the condition on an AD type has the type
  as `tag`; the others have the tag 0.
* Whether the innermost part of a command is long enough is a flag, `formed`. The generated getters assert that the view
  is valid, so a getter of an invalid view aborts.
* The tables are not used by the scanner: `apcf_scanner_` is read by these commands only.
-/
namespace Verif.Apcf

/-- The lists of conditions of `ApcfScanner`, le_apcf.h 64-75. -/
inductive Kind
  | address
  | service
  | solicitation
  | name
  | manufacturer
  | serviceData
  | adType
  deriving DecidableEq, Repr

/-- `ApcfAction`, packets/hci_packets.pdl 6689-6693. -/
inductive Action
  | add
  | delete
  | clear
  | other (n : Nat)
  deriving DecidableEq, Repr

/-- `Filter`, le_apcf.h 25-37. -/
structure Filter where
  index : Nat
  params : List Nat
  deriving DecidableEq, Repr

/-- `BroadcasterAddressFilter`, `GapDataFilter`, `AdTypeFilter`, le_apcf.h 39-62. Their `operator==` compare all members,
le_apcf.cc 117-132. -/
structure Entry where
  index : Nat
  tag : Nat
  data : List UInt8
  mask : List UInt8
  deriving DecidableEq, Repr

/-- `ApcfScanner`, le_apcf.h 64-75. -/
structure St where
  enable : Bool
  filters : List Filter
  lists : Kind → List Entry

/-- The sizes in `ControllerProperties`, controller_properties.h 199-207; each has eight bits. -/
structure Caps where
  filters : Nat
  list : Kind → Nat

/-- `ApcfScanner{}`; also after Reset, le_controller.cc 6610. -/
def St.fresh : St := ⟨false, [], fun _ => []⟩

/-- HasFilterIndex, le_apcf.cc 31-34. -/
def hasIndex (s : St) (i : Nat) : Bool := s.filters.any (fun f => f.index = i)

/-- ClearFilterIndex, le_apcf.cc 36-68. -/
def clearIndex (s : St) (i : Nat) : St := { s with lists := fun k => (s.lists k).filter (fun e => !(e.index = i)) }

/-- The difference of a size and a length, stored in eight bits. -/
def spaces (cap n : Nat) : Nat := (cap + 256 - n % 256) % 256

abbrev unknownConnection := 0x02
abbrev capacityExceeded := 0x07
abbrev invalid := 0x12

/-- UpdateFilterList, le_apcf.cc 81-115: the status and the new list. -/
def update (s : St) (l : List Entry) (cap : Nat) (a : Action) (e : Entry) : Nat × List Entry :=
  if hasIndex s e.index = false then (unknownConnection, l)
  else match a with
    | .add => if l.length = cap then (capacityExceeded, l) else (0, l ++ [e])
    | .delete => (0, l.filter (fun x => !(x = e)))
    | .clear => (0, l.filter (fun x => !(x.index = e.index)))
    | .other _ => (invalid, l)

/-- The result of a command: the answer, or the report of an invalid packet, or the controller aborts. -/
inductive Res
  | answer (status spaces : Nat)
  | refused
  | abort
  deriving DecidableEq, Repr

/-- LeApcfAddFilteringParameters, le_apcf.cc 145-184. -/
def addFilter (c : Caps) (s : St) (i : Nat) (p : List Nat) : Res × St :=
  if hasIndex s i then (.answer invalid (spaces c.filters s.filters.length), s)
  else if spaces c.filters s.filters.length = 0 then (.answer capacityExceeded 0, s)
  else (.answer 0 (spaces c.filters s.filters.length - 1), { s with filters := s.filters ++ [⟨i, p⟩] })

/-- LeApcfDeleteFilteringParameters, le_apcf.cc 186-204. -/
def deleteFilter (c : Caps) (s : St) (i : Nat) : Res × St :=
  if hasIndex s i = false then (.answer unknownConnection (spaces c.filters s.filters.length), s)
  else (.answer 0 ((spaces c.filters s.filters.length + 1) % 256),
    clearIndex { s with filters := s.filters.filter (fun f => !(f.index = i)) } i)

/-- LeApcfClearFilteringParameters, le_apcf.cc 206-210, and Clear, 70-79. -/
def clearFilters (c : Caps) (s : St) : Res × St := (.answer 0 c.filters, { s with filters := [], lists := fun _ => [] })

/-- The data of the conditions other than addresses and AD types is cut into halves, for example le_apcf.cc 237-241. -/
def split (k : Kind) (e : Entry) : Entry := match k with
  | .address => e
  | .adType => e
  | _ => ⟨e.index, 0, e.data.take (e.data.length / 2), e.data.drop (e.data.length / 2)⟩

/-- LeApcfBroadcasterAddress, LeApcfServiceUuid and so on, le_apcf.cc 212-365. -/
def condition (c : Caps) (s : St) (k : Kind) (a : Action) (e : Entry) : Res × St :=
  let r := update s (s.lists k) (c.list k) a (split k e)
  (.answer r.1 (spaces (c.list k) r.2.length), { s with lists := fun j => if j = k then r.2 else s.lists j })

/-- The commands. The Transport Discovery Service part is not implemented; Read Extended Features does not change
anything. -/
inductive Cmd
  | enable (on : Bool)
  | filter (a : Action) (formed : Bool) (index : Nat) (params : List Nat)
  | condition (k : Kind) (a : Action) (formed : Bool) (e : Entry)
  | discovery (formed : Bool)
  | features
  | reset
  deriving DecidableEq, Repr

/-- LeApcf, dual_mode_controller.cc 2846-3099. For Set Filtering Parameters and Broadcaster Address the inner view is
not checked: `CHECK_PACKET_VIEW` is given the outer one (2883, 2899, 2907, 2932, 2942, 2952). Clearing an address
condition passes the empty address. -/
def step (c : Caps) (s : St) : Cmd → Res × St
  | .enable on => (.answer 0 0, { s with enable := on })
  | .filter .add formed i p => if formed then addFilter c s i p else (.abort, s)
  | .filter .delete formed i _ => if formed then deleteFilter c s i else (.abort, s)
  | .filter .clear _ _ _ => clearFilters c s
  | .filter (.other _) _ _ _ => (.answer invalid 0, s)
  | .condition .address (.other _) _ _ => (.answer invalid 0, s)
  | .condition .address .clear formed e =>
    if formed then condition c s .address .clear ⟨e.index, 2, List.replicate 6 0, []⟩ else (.abort, s)
  | .condition .address a formed e => if formed then condition c s .address a ⟨e.index, e.tag, e.data, []⟩ else (.abort, s)
  | .condition k a formed e => if formed then condition c s k a e else (.refused, s)
  | .discovery formed => if formed then (.answer invalid 0, s) else (.refused, s)
  | .features => (.answer 0 0, s)
  | .reset => (.answer 0 0, .fresh)

/-- A history: the answers; it stops at an abort. -/
def run (c : Caps) (s : St) : List Cmd → List Res × St
  | [] => ([], s)
  | x :: xs => match step c s x with
    | (.abort, s') => ([.abort], s')
    | (r, s') => let q := run c s' xs; (r :: q.1, q.2)

end Verif.Apcf
