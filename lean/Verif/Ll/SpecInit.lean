import Verif.Ll.SpecConn
/-!
# Own addresses, active scanning and initiating: specification (C51, C52)
-/

namespace Verif.Ll
open Verif.Le

/-- The address a controller uses for a peer `r` with an own address type. `rnd` are
the new resolvable private addresses made in this step. -/
def OwnFor (cfg : Config) (s : Le.State) (rnd : Irk → Address) (r : AddressWithType)
    (t : OwnAddressType) (own : AddressWithType) : Prop :=
  match t with
  | .pub => own = ⟨cfg.publicAddress, .publicDevice⟩
  | .random => own = ⟨s.randomAddress, .randomDevice⟩
  | .resolvableOrPublic =>
    (∃ e ∈ s.resolvingList, IsPeer e r ∧ own = ⟨rnd e.localIrk, .randomDevice⟩) ∨
    ((∀ e ∈ s.resolvingList, ¬ IsPeer e r) ∧ own = ⟨cfg.publicAddress, .publicDevice⟩)
  | .resolvableOrRandom =>
    (∃ e ∈ s.resolvingList, IsPeer e r ∧ own = ⟨rnd e.localIrk, .randomDevice⟩) ∨
    ((∀ e ∈ s.resolvingList, ¬ IsPeer e r) ∧ own = ⟨s.randomAddress, .randomDevice⟩)
where
  /-- The entry of the resolving list is for the device. -/
  IsPeer (e : RlEntry) (r : AddressWithType) : Prop :=
    e.peerAddress = r.address ∧
      e.peerType = (if r.type = .publicDevice ∨ r.type = .publicIdentity then .pub else .random)

/-- The scanner is active on some PHY it uses. -/
def ActiveScan (s : Le.State) : Prop :=
  (s.scanner.le1m.enabled = true ∧ s.scanner.le1m.scanType = .active) ∨
  (s.scanner.leCoded.enabled = true ∧ s.scanner.leCoded.scanType = .active)

/-- The initiator wants to connect to the (resolved) advertiser `r`, whose PDU is for
`target` if it is directed. -/
def InitiatorWants (ah : Hash) (cfg : Config) (s : Le.State) (directed : Prop)
    (r target : AddressWithType) : Prop :=
  (match s.initiator.filterPolicy with
   | .usePeerAddress => r = s.initiator.peerAddress
   | .useFilterAcceptListWithPeerAddress => Listed s r
   | .useDecisionPdus | .useFilterAcceptListWithDecisionPdus => False) ∧
  (directed → (OwnDeviceAddress cfg s target ∨ ResolvesToUs ah s r target) ∧
    (s.initiator.ownAddressType = .resolvableOrPublic ∨ s.initiator.ownAddressType = .resolvableOrRandom →
      RpaForm target))

/-- The scan requests among some outputs, with the advertiser they are for. -/
def scanRequestsOf (out : List Out) : List (AddressWithType × AddressWithType) :=
  out.filterMap (fun o => match o with | .send (.scan own adv) => some (own, adv) | _ => none)

end Verif.Ll
