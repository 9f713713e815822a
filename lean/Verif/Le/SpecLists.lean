import Verif.Le.Step
/-!
# LE address lists: specification (C17)

A list is a set of devices. `SetSpec` says how one operation changes a set.
-/

namespace Verif.Le

/-- What an operation asks of a set with elements in `κ`. -/
inductive SetOp (κ : Type) where
  | add (k : κ)
  | remove (k : κ)
  | clear
  | other

/-- The set after an operation that succeeded (`ok`) or failed. -/
def SetSpec {κ : Type} (op : SetOp κ) (ok : Bool) (before after : κ → Prop) : Prop :=
  match op, ok with
  | .add k, true => ∀ x, after x ↔ before x ∨ x = k
  | .remove k, true => ∀ x, after x ↔ before x ∧ x ≠ k
  | .clear, true => ∀ x, ¬ after x
  | _, _ => ∀ x, after x ↔ before x

/-- Did the operation succeed? Steps that are not commands always do. -/
def succeeded (status : Option Status) : Bool :=
  match status with
  | none => true
  | some e => e == .success

/-! ### Filter accept list -/

/-- A device named in the filter accept list commands. All anonymous advertisers are
one device. -/
inductive Device where
  | pub (a : Address)
  | random (a : Address)
  | anonymous
  deriving DecidableEq

/-- The device named by an address type and address. -/
def deviceOf (t : FalAddressType) (a : Address) : Device :=
  match t with
  | .pub => .pub a
  | .random => .random a
  | .anonymous => .anonymous

/-- The devices in the filter accept list. -/
def Accepted (s : State) (d : Device) : Prop :=
  ∃ e ∈ s.filterAcceptList, deviceOf e.type e.address = d

/-- What each operation asks of the filter accept list. -/
def filterAcceptOp : Op → SetOp Device
  | .cmd (.addFilterAccept t a) => .add (deviceOf t a)
  | .cmd (.removeFilterAccept t a) => .remove (deviceOf t a)
  | .cmd .clearFilterAccept => .clear
  | .env .reset => .clear
  | _ => .other

/-- The filter accept list is in use by advertising, scanning or initiating. -/
def FilterAcceptListInUse (s : State) : Prop :=
  (s.legacyAdv.enable = true ∧ s.legacyAdv.filterPolicy ≠ .allDevices) ∨
  (∃ h a, (h, a) ∈ s.extAdv ∧ a.enable = true ∧ a.filterPolicy ≠ .allDevices) ∨
  (s.scanner.enable = true ∧ (s.scanner.filterPolicy = .filterAcceptListOnly ∨
    s.scanner.filterPolicy = .filterAcceptListAndInitiatorsIdentity)) ∨
  (s.initiator.enable = true ∧ (s.initiator.filterPolicy = .useFilterAcceptListWithPeerAddress ∨
    s.initiator.filterPolicy = .useFilterAcceptListWithDecisionPdus))

/-! ### Resolving list -/

/-- The identities in the resolving list. -/
def Resolvable (s : State) (k : PeerAddressType × Address) : Prop :=
  ∃ e ∈ s.resolvingList, (e.peerType, e.peerAddress) = k

/-- What each operation asks of the resolving list. -/
def resolvingOp : Op → SetOp (PeerAddressType × Address)
  | .cmd (.addResolving t a _ _) => .add (t, a)
  | .cmd (.removeResolving t a) => .remove (t, a)
  | .cmd .clearResolving => .clear
  | .env .reset => .clear
  | _ => .other

/-- The host-provided content of the resolving list. -/
def resolvingContent (s : State) : List (PeerAddressType × Address × Irk × Irk × PrivacyMode) :=
  s.resolvingList.map (fun e => (e.peerType, e.peerAddress, e.peerIrk, e.localIrk, e.privacyMode))

/-- The entries of the resolving list after an operation that succeeded (`ok`) or
failed. -/
def EntriesSpec (o : Op) (ok : Bool) (s s' : State) : Prop :=
  match o, ok with
  | .cmd (.addResolving t a pk lk), true =>
      ∀ x, x ∈ resolvingContent s' ↔ x ∈ resolvingContent s ∨ x = (t, a, pk, lk, .network)
  | .cmd (.removeResolving t a), true =>
      ∀ x, x ∈ resolvingContent s' ↔ x ∈ resolvingContent s ∧ (x.1, x.2.1) ≠ (t, a)
  | .cmd .clearResolving, true => resolvingContent s' = []
  | .env .reset, _ => resolvingContent s' = []
  | .cmd (.setPrivacyMode t a m), true =>
      ∀ t' a' pk lk m', (t', a', pk, lk, m') ∈ resolvingContent s' ↔
        if (t', a') = (t, a) then m' = m ∧ ∃ m0, (t', a', pk, lk, m0) ∈ resolvingContent s
        else (t', a', pk, lk, m') ∈ resolvingContent s
  | _, _ => resolvingContent s' = resolvingContent s

/-- Advertising, scanning or initiating is active while address resolution is on. -/
def ResolvingListInUse (s : State) : Prop :=
  s.resolvingListEnabled = true ∧
  (s.legacyAdv.enable = true ∨ (∃ h a, (h, a) ∈ s.extAdv ∧ a.enable = true) ∨
    s.scanner.enable = true ∨ s.initiator.enable = true)

/-! ### Periodic advertiser list -/

/-- The advertisers in the periodic advertiser list. -/
def PeriodicListed (s : State) (k : PalEntry) : Prop := k ∈ s.periodicAdvertiserList

/-- What each operation asks of the periodic advertiser list. -/
def periodicListOp : Op → SetOp PalEntry
  | .cmd (.addPeriodicAdvertiser e) => .add e
  | .cmd (.removePeriodicAdvertiser e) => .remove e
  | .cmd .clearPeriodicAdvertiser => .clear
  | .env .reset => .clear
  | _ => .other

/-- The commands that edit one of the three lists. -/
def Cmd.editsList : Cmd → Bool
  | .addFilterAccept .. | .removeFilterAccept .. | .clearFilterAccept
  | .addResolving .. | .removeResolving .. | .clearResolving | .setPrivacyMode ..
  | .addPeriodicAdvertiser .. | .removePeriodicAdvertiser .. | .clearPeriodicAdvertiser => true
  | _ => false

end Verif.Le
