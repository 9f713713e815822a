import Verif.Cfg.Bits
/-!
# Properties of a controller and their check

Models `ControllerProperties` (model/controller/controller_properties.h and .cc) as far as features, commands
and their checks go. The supported commands of a configuration are modelled in `Verif.Hci.Model`.

Simplifications.
* A `uint64_t` mask is a `Nat`; `std::array<uint8_t, 64>` is a list of `Nat`. No operation overflows.
* The log is the list of its messages; texts are left out.
* The numbers of buffers, lists and other sizes of a preset are not modelled.
-/
namespace Verif.Cfg

/-- `ControllerProperties`, controller_properties.h 124, 130, 131, 134, 143, 146 and 57: the members the checks read. -/
structure Props where
  lmpVersion : Nat
  br : Bool
  le : Bool
  commands : List Nat
  page0 : Nat
  page1 : Nat
  page2 : Nat
  leFeatures : Nat
  roles : Nat
  deriving DecidableEq, Repr

/-- `SupportsLLFeature`, controller_properties.h 217-219. -/
def Props.ll (p : Props) (bit : Nat) : Bool := p.leFeatures &&& bit != 0

/-- `SupportsLMPFeature` of page 0, controller_properties.h 209-211. -/
def Props.lmp0 (p : Props) (bit : Nat) : Bool := p.page0 &&& bit != 0

/-- `SupportsLMPFeature` of page 2, controller_properties.h 213-215. -/
def Props.lmp2 (p : Props) (bit : Nat) : Bool := p.page2 &&& bit != 0

/-- `SupportsCommand`, controller_properties.h 221-224; the octet is below 64 for every `OpCodeIndex`. -/
def Props.command (p : Props) (index : Nat) : Bool := p.commands.getD (index / 10) 0 &&& 1 <<< (index % 10) != 0

/-- `LeSupportedPhys`, controller_properties.h 228-237. -/
def Props.phys (p : Props) : Nat :=
  (0x1 ||| if p.ll Ll.le2mPhy then 0x2 else 0) ||| if p.ll Ll.leCodedPhy then 0x4 else 0

/-- `Requirement`, controller_properties.cc 782-786. -/
inductive Requirement
  | mandatory
  | optional
  | excluded
  deriving DecidableEq, Repr

/-- `mandatory_or_excluded`, controller_properties.cc 791. -/
def mandatoryOrExcluded (c : Bool) : Requirement := if c then .mandatory else .excluded

/-- `mandatory_or_optional`, controller_properties.cc 792. -/
def mandatoryOrOptional (c : Bool) : Requirement := if c then .mandatory else .optional

/-- `optional_or_excluded`, controller_properties.cc 793. It returns `kMandatory`, not `kOptional`. -/
def optionalOrExcluded (c : Bool) : Requirement := if c then .mandatory else .excluded

/-- `mandatory_or_optional_or_excluded`, controller_properties.cc 794-796. -/
def mandatoryOrOptionalOrExcluded (c d : Bool) : Requirement :=
  if c then .mandatory else if d then .optional else .excluded

end Verif.Cfg
