import Verif.Le.Update
/-!
# Connection and scan parameters: specification (C22, C23)
-/

namespace Verif.Le

/-- The supervision timeout rule in microseconds: the timeout (unit 10 ms) is larger
than twice the time (1 + latency) * interval (unit 1.25 ms). -/
def TimeoutRule (interval latency timeout : Nat) : Prop :=
  timeout * 10000 > (1 + latency) * (interval * 1250) * 2

/-- The rule with equality allowed. -/
def TimeoutRuleWeak (interval latency timeout : Nat) : Prop :=
  timeout * 10000 ≥ (1 + latency) * (interval * 1250) * 2

/-- A legal scan window and interval of the legacy and initiating commands. -/
def LegalWindow (interval window : Nat) : Prop :=
  0x4 ≤ window ∧ window ≤ interval ∧ interval ≤ 0x4000

/-- The connection parameters are in their ranges, minimum below maximum
(Core Vol 4, Part E, 7.8.12 and 7.8.66). -/
structure LegalRanges (p : ConnParams) : Prop where
  scan : LegalWindow p.scanInterval p.scanWindow
  interval : 0x6 ≤ p.intervalMin ∧ p.intervalMin ≤ p.intervalMax ∧ p.intervalMax ≤ 0xc80
  latency : p.maxLatency ≤ 0x1f3
  timeout : 0xa ≤ p.supervisionTimeout ∧ p.supervisionTimeout ≤ 0xc80

/-- The three PHY bits of a mask. -/
inductive Phy where
  | le1m | le2m | leCoded
  deriving DecidableEq, Repr

/-- The bit of a PHY in a PHY mask. -/
def Phy.bit : Phy → Nat
  | .le1m => 0 | .le2m => 1 | .leCoded => 2

/-- Number of bits set in an eight bit mask. -/
def bitCount (mask : Nat) : Nat := ((List.range 8).filter (fun i => mask.testBit i)).length

/-- The entry a parameter list has for a PHY of the mask: the entries follow the set
bits from the lowest up. -/
def listedFor {α : Type} (mask : Nat) (params : List α) (phy : Phy) : Option α :=
  if mask.testBit phy.bit then
    params[((List.range phy.bit).filter (fun i => mask.testBit i)).length]?
  else none

/-- What the initiator uses on a PHY. -/
def Initiator.phy (i : Initiator) : Phy → InitPhy
  | .le1m => i.le1m | .le2m => i.le2m | .leCoded => i.leCoded

/-- What the scanner uses on a PHY; it never scans on the 2M PHY. -/
def Scanner.phy (s : Scanner) : Phy → ScanPhy
  | .le1m => s.le1m | .le2m => {} | .leCoded => s.leCoded

/-- The host's scan parameters for a PHY are in use there. -/
def ScanPhy.uses (p : ScanPhy) (q : ScanPhyParams) : Prop :=
  p.enabled = true ∧ p.scanType = q.scanType ∧ p.interval = q.interval ∧ p.window = q.window

/-- The controller supports a PHY. -/
def Config.supportsPhy (cfg : Config) : Phy → Bool
  | .le1m => true | .le2m => cfg.supports2mPhy | .leCoded => cfg.supportsCodedPhy

/-- Every bit of the mask is a supported PHY. -/
def OnlySupported (cfg : Config) (mask : Nat) : Prop :=
  ∀ i < 8, mask.testBit i = true → ∃ phy : Phy, phy.bit = i ∧ cfg.supportsPhy phy = true

/-- The own address asked for can be used for initiating: a random address is set, or
for `resolvableOrRandom` with a given peer, the peer has an entry in the resolving list. -/
def OwnAddressAvailable (s : State) (policy : InitiatorFilterPolicy) (peer : AddressWithType) :
    OwnAddressType → Prop
  | .random => s.randomAddress ≠ 0
  | .resolvableOrRandom => policy = .usePeerAddress → s.randomAddress ≠ 0 ∨
      ∃ e ∈ s.resolvingList, peer.address = e.peerAddress ∧ peer.toPeerType = e.peerType
  | _ => True

end Verif.Le
