import Verif.Le.Step
/-!
# Resolvable private addresses

Generation, recognition and resolution of resolvable private addresses
(`model/controller/le_controller.cc`, `include/hci/address_with_type.h`).

`Address` is a 48-bit number; byte `i` of `Address::address` is bits `8i` to `8i+7`.
-/

namespace Verif.Ll
open Verif.Le

/-- The first three bytes of `aes_128(irk, prand, 3)` (lib/crypto/crypto.cc 24-40),
as a function of the key and the three bytes. AES itself is not modelled: the
function is arbitrary. -/
abbrev Hash := Irk → BitVec 24 → BitVec 24

/-- The results of the `std::rand()` calls of one `generate_rpa`. The last one is
only drawn when it is needed. -/
structure Draws where
  r0 : Nat
  r1 : Nat
  r2 : Nat
  r3 : Nat
  deriving DecidableEq, Repr

/-- `prand[2] & ~0xC0` (le_controller.cc 4316, 4319). -/
def maskedTop (d : Draws) : BitVec 8 := BitVec.ofNat 8 d.r2 &&& 0x3f#8

/-- `prand[0]` after the replacement of all zeros and all ones (le_controller.cc
4314, 4320-4323). -/
def lowByte (d : Draws) : BitVec 8 :=
  if (BitVec.ofNat 8 d.r0 = 0x00#8 ∧ BitVec.ofNat 8 d.r1 = 0x00#8 ∧ maskedTop d = 0x00#8) ∨
     (BitVec.ofNat 8 d.r0 = 0xff#8 ∧ BitVec.ofNat 8 d.r1 = 0xff#8 ∧ maskedTop d = 0x3f#8) then
    BitVec.ofNat 8 (d.r3 % 0xfe + 1)
  else BitVec.ofNat 8 d.r0

/-- `prand` as used for the address (le_controller.cc 4313-4324). -/
def prand (d : Draws) : BitVec 24 := (maskedTop d ||| 0x40#8) ++ BitVec.ofNat 8 d.r1 ++ lowByte d

/-- `generate_rpa` (le_controller.cc 4310-4340). -/
def makeRpa (ah : Hash) (d : Draws) (irk : Irk) : Address := prand d ++ ah irk (prand d)

/-- `AddressWithType::IsRpa` (address_with_type.h 50-53). -/
def isRpa (a : AddressWithType) : Bool :=
  a.type == .randomDevice && (a.address.extractLsb' 40 8 &&& 0xc0#8) == 0x40#8

/-- `AddressWithType::IsRpaThatMatchesIrk` (address_with_type.h 57-74). -/
def matchesIrk (ah : Hash) (irk : Irk) (a : AddressWithType) : Bool :=
  isRpa a && ah irk (a.address.extractLsb' 24 24) == a.address.extractLsb' 0 24

/-- The first resolving list entry whose peer key matches (the loop of
`ResolvePrivateAddress`, le_controller.cc 277-285). -/
def findResolving (ah : Hash) (a : AddressWithType) (l : List RlEntry) : Option RlEntry :=
  l.find? (fun e => matchesIrk ah e.peerIrk a)

/-- What `ResolvePrivateAddress` returns (le_controller.cc 268-288). -/
def resolvePrivate (ah : Hash) (s : Le.State) (a : AddressWithType) : Option AddressWithType :=
  if isRpa a = false then some a
  else if s.resolvingListEnabled = false then none
  else (findResolving ah a s.resolvingList).map (fun e => peerDeviceAddress e.peerAddress e.peerType)

/-- What `ResolvePrivateAddress` writes: the matching entry remembers the address
(le_controller.cc 281). -/
def resolveUpdate (ah : Hash) (s : Le.State) (a : AddressWithType) : Le.State :=
  if isRpa a = true ∧ s.resolvingListEnabled = true then
    { s with resolvingList := modifyFirst (fun e => matchesIrk ah e.peerIrk a) (fun e => { e with peerRpa := some a.address }) s.resolvingList }
  else s

/-- `ResolvePrivateAddress(a).value_or(a)`. -/
def resolved (ah : Hash) (s : Le.State) (a : AddressWithType) : AddressWithType :=
  (resolvePrivate ah s a).getD a

/-- `ResolveTargetA` (le_controller.cc 290-303). -/
def resolveTarget (ah : Hash) (s : Le.State) (target adv : AddressWithType) : Bool :=
  s.resolvingListEnabled && s.resolvingList.any (fun e =>
    adv == peerDeviceAddress e.peerAddress e.peerType && matchesIrk ah e.localIrk target)

/-- `IsLocalPublicOrRandomAddress` (le_controller.h 212-221). -/
def isLocal (cfg : Config) (s : Le.State) (a : AddressWithType) : Bool :=
  match a.type with
  | .publicDevice => a.address == cfg.publicAddress
  | .randomDevice => a.address == s.randomAddress
  | _ => false

/-- `ValidateTargetA` (le_controller.cc 305-313). -/
def validateTarget (ah : Hash) (cfg : Config) (s : Le.State) (target adv : AddressWithType) : Bool :=
  if isLocal cfg s target then true
  else if isRpa target then resolveTarget ah s target adv
  else false

/-- `LeFilterAcceptListContainsDevice(AddressWithType)` (le_controller.cc 225-239). -/
def falContains (s : Le.State) (a : AddressWithType) : Bool :=
  filterAcceptListContains s (match a.toPeerType with | .pub => .pub | .random => .random) a.address

end Verif.Ll
