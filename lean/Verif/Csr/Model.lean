/-!
# The CSR vendor command

Models `DualModeController::CsrVendorCommand` and its four helpers (model/controller/dual_mode_controller.cc 3123-3285)
and model/controller/vendor_commands/csr.h.

Simplifications.
* The command's parameters are a list of octets. A reading of a member that is not there gives 0 in `octet`; each
  reading below is guarded by the length, as in the code. The two writes at the label `complete` are not guarded there:
  beyond the end they are the outcome `outOfBounds`.
* A failed `ASSERT` ends the process: the outcome `abort`.
* Of the controller's properties only `supports_csr_vendor_command` and `lmp_features[0]` are here.
-/
namespace Verif.Csr

/-- The members of `ControllerProperties` that are read or written, controller_properties.h 138 and 143. -/
structure Props where
  supported : Bool
  features : Nat
  deriving DecidableEq, Repr

/-- The events sent: Command Complete with the status Unknown HCI Command, or a vendor specific event. -/
inductive Event
  | unknownCommand
  | vendor (params : List UInt8)
  deriving DecidableEq, Repr

/-- How the call ends. -/
inductive Outcome
  | done (p : Props) (e : Event)
  | abort
  | outOfBounds
  deriving DecidableEq, Repr

/-- `parameters[i]`. -/
def octet (l : List UInt8) (i : Nat) : Nat := (l.getD i 0).toNat

/-- `(uint16_t)parameters[i] | ((uint16_t)parameters[i + 1] << 8)`. -/
def word (l : List UInt8) (i : Nat) : Nat := octet l i + 256 * octet l (i + 1)

/-- `CsrReadVarid`, 3225-3238, with `CSR_VARID_BUILDID`, csr.h 24. -/
def readVarid (id : Nat) (value : List UInt8) : Option (List UInt8) :=
  if id = 0x2819 then
    if 2 ≤ value.length then some ((value.set 0 0xe8).set 1 0x30) else none
  else some value

/-- `CsrReadPskey`, 3245-3268, with the enumeration csr.h 28-33. -/
def readPskey (id : Nat) (value : List UInt8) : Option (List UInt8) :=
  if id = 0xda then
    if 1 ≤ value.length then some (value.set 0 7) else none
  else if id = 0xdb then
    if 1 ≤ value.length then some (value.set 0 16) else none
  else if id = 0x10d then
    if 2 ≤ value.length then some ((value.set 0 8).set 1 8) else none
  else some value

/-- `CsrWritePskey`, 3270-3285. The shifted octets do not overlap: the disjunction is a sum. -/
def writePskey (id : Nat) (value : List UInt8) (p : Props) : Option Props :=
  if id = 0xef then
    if 8 ≤ value.length then
      some { p with features := octet value 0 + 2 ^ 8 * octet value 1 + 2 ^ 16 * octet value 2 + 2 ^ 24 * octet value 3
        + 2 ^ 32 * octet value 4 + 2 ^ 40 * octet value 5 + 2 ^ 48 * octet value 6 + 2 ^ 56 * octet value 7 }
    else none
  else some p

/-- `std::copy(value.begin(), value.end(), parameters.begin() + i)`. -/
def copyAt (l : List UInt8) (i : Nat) (value : List UInt8) : List UInt8 :=
  l.take i ++ value ++ l.drop (i + value.length)

/-- From the label `complete` on, 3217-3223. -/
def complete (p : Props) (l : List UInt8) : Outcome :=
  if l.length < 3 then .outOfBounds else .done p (.vendor ((l.set 1 1).set 2 0))

/-- The branch for `CSR_VARID_PS`, 3177-3201. `length` is multiplied in sixteen bits. -/
def storeCommand (p : Props) (l : List UInt8) (type : Nat) : Outcome :=
  let pskey := word l 11
  let length := 2 * word l 13 % 65536
  if l.length < 17 + length then complete p l
  else
    let value := (l.drop 17).take length
    if type = 0 then
      match readPskey pskey value with
      | none => .abort
      | some value => complete p (copyAt l 17 value)
    else
      match writePskey pskey value p with
      | none => .abort
      | some p => complete p l

/-- The other branch, 3203-3215. `CsrWriteVarid`, 3240-3243, does nothing. -/
def varCommand (p : Props) (l : List UInt8) (type varid length : Nat) : Outcome :=
  let value := (l.drop 11).take length
  if type = 0 then
    match readVarid varid value with
    | none => .abort
    | some value => complete p (copyAt l 11 value)
  else complete p l

/-- `CsrVendorCommand`, 3126-3223. `2 * (length - 5)` is reduced to sixteen bits; for a length below five it wraps. -/
def csr (p : Props) (l : List UInt8) : Outcome :=
  if p.supported = false then .done p .unknownCommand
  else if l = [] then complete p l
  else if octet l 0 ≠ 0xc2 ∨ l.length < 11 then complete p l
  else
    let type := word l 1
    let varid := word l 7
    let length := 2 * (word l 3 + (65536 - 5)) % 65536
    if l.length < 11 + length ∨ (varid = 0x7003 ∧ length < 6) then complete p l
    else if varid = 0x7003 then storeCommand p l type
    else varCommand p l type varid length

/-- The commands of a host, one after another, until one ends the process: the properties and the events. -/
def runAll (p : Props) : List (List UInt8) → Option (Props × List Event)
  | [] => some (p, [])
  | l :: ls =>
    match csr p l with
    | .done p e => (runAll p ls).map fun (q, es) => (q, e :: es)
    | _ => none

end Verif.Csr
