import Verif.Ll.SpecRpa
/-!
# The scanner: specification (C49)

Volume 6 Part B § 4.3.3 and volume 4 Part E § 7.8.10 of the Core specification: the
four scanner filter policies.
-/

namespace Verif.Ll
open Verif.Le

/-- The device is in the filter accept list. -/
def Listed (s : Le.State) (a : AddressWithType) : Prop :=
  ∃ e ∈ s.filterAcceptList, e.address = a.address ∧
    e.type = (if a.type = .publicDevice ∨ a.type = .publicIdentity then .pub else .random)

/-- The address is one the controller was given. -/
def OwnDeviceAddress (cfg : Config) (s : Le.State) (a : AddressWithType) : Prop :=
  a = ⟨cfg.publicAddress, .publicDevice⟩ ∨ a = ⟨s.randomAddress, .randomDevice⟩

/-- The address has the form of a resolvable private address. -/
def RpaForm (a : AddressWithType) : Prop := a.type = .randomDevice ∧ a.address.toNat / 2 ^ 46 = 1

/-- The address resolves to the controller, in its relation with the peer `r`. -/
def ResolvesToUs (ah : Hash) (s : Le.State) (r a : AddressWithType) : Prop :=
  s.resolvingListEnabled = true ∧ ∃ e ∈ s.resolvingList,
    r = peerDeviceAddress e.peerAddress e.peerType ∧ a.type = .randomDevice ∧
      RpaOf ah e.localIrk a.address

/-- A PDU from the (resolved) device `r`, for `target` if it is directed, passes the
filter policy of the scanner. -/
def ScanAllows (ah : Hash) (cfg : Config) (s : Le.State) (directed : Prop)
    (r target : AddressWithType) : Prop :=
  match s.scanner.filterPolicy with
  | .acceptAll => directed → OwnDeviceAddress cfg s target ∨ ResolvesToUs ah s r target
  | .filterAcceptListOnly =>
    Listed s r ∧ (directed → OwnDeviceAddress cfg s target ∨ ResolvesToUs ah s r target)
  | .checkInitiatorsIdentity => directed → OwnDeviceAddress cfg s target ∨ RpaForm target
  | .filterAcceptListAndInitiatorsIdentity =>
    Listed s r ∧ (directed → OwnDeviceAddress cfg s target ∨ RpaForm target)

/-- The device the controller takes the sender of a packet for: the identity of the
first peer whose key explains the address when address resolution is on, otherwise
the address itself. -/
def Identity (ah : Hash) (s : Le.State) (a r : AddressWithType) : Prop :=
  (∃ before e after, s.resolvingListEnabled = true ∧ a.type = .randomDevice ∧
      s.resolvingList = before ++ e :: after ∧ RpaOf ah e.peerIrk a.address ∧
      (∀ x ∈ before, ¬ RpaOf ah x.peerIrk a.address) ∧
      r = peerDeviceAddress e.peerAddress e.peerType) ∨
  (¬ (s.resolvingListEnabled = true ∧ a.type = .randomDevice ∧
      ∃ e ∈ s.resolvingList, RpaOf ah e.peerIrk a.address)) ∧ r = a

/-- The PHYs an extended PDU is sent on are used by the scanner or supported. -/
def PhysUsable (cfg : Config) (s : Le.State) (p : ExtPdu) : Prop :=
  (p.primary = .le1m → s.scanner.le1m.enabled = true) ∧
  (p.primary = .codedS8 → s.scanner.leCoded.enabled = true) ∧
  (p.secondary = .le2m → cfg.supports2mPhy = true) ∧
  (p.secondary = .codedS8 ∨ p.secondary = .codedS2 → cfg.supportsCodedPhy = true)

end Verif.Ll
