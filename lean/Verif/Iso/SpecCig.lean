import Verif.Iso.Model
import Mathlib.Data.List.Forall2
/-!
# Specification of the configuration of connected isochronous groups
-/

namespace Verif.Iso

open Verif.Le (mapFind)

/-- The central's CIS `cisId` of the group `cigId`. -/
def Cis.isCentral (c : Cis) (cigId cisId : Nat) : Prop :=
  c.role = .central ∧ c.cigId = cigId ∧ c.cisId = cisId

/-- The last element of the command that configures the CIS `cisId`. -/
def lastConfig (cs : List NewCis) (cisId : Nat) : Option CisConfig :=
  (cs.reverse.find? (fun c => c.cisId = cisId)).map (·.config)

/-- What a successful Set CIG Parameters command does: `s` and `s'` are the states before and after the command,
`cs` the CISes in the command, `hs` the handles in the answer and `cig` the parameters of the group. -/
structure Configured (s s' : State) (cigId : Nat) (cig : CigConfig) (cs : List NewCis) (hs : List Nat) : Prop where
  /-- One handle per listed CIS, in order. -/
  handles : List.Forall₂ (fun c h => ∃ x ∈ s'.cises, x.handle = h ∧ x.isCentral cigId c.cisId) cs hs
  /-- The CISes that existed are still there and have not changed. -/
  kept : ∀ x ∈ s.cises, x ∈ s'.cises
  /-- The CISes that already belonged to the group have kept their handles. -/
  keptHandles : List.Forall₂ (fun c h => ∀ x ∈ s.cises, x.isCentral cigId c.cisId → h = x.handle) cs hs
  /-- Every other CIS is new, belongs to this group, is listed in the command and is not connected. -/
  added : ∀ x ∈ s'.cises, x ∈ s.cises ∨
    ((∀ y ∈ s.cises, y.handle ≠ x.handle) ∧ x.state = .configuration ∧ x.acl = none ∧
      ∃ c ∈ cs, x.isCentral cigId c.cisId)
  /-- The group has the parameters in the command. -/
  group : mapFind s'.cigs cigId = some cig
  /-- The configurations of the listed CISes are replaced, those of the other CISes are kept. -/
  configs : ∀ cisId, mapFind s'.cisConfigs (cigId, cisId) =
    (lastConfig cs cisId).or (mapFind s.cisConfigs (cigId, cisId))
  /-- Other groups are not disturbed. -/
  others : ∀ k, k ≠ cigId → mapFind s'.cigs k = mapFind s.cigs k
  otherConfigs : ∀ k : Nat × Nat, k.1 ≠ cigId → mapFind s'.cisConfigs k = mapFind s.cisConfigs k
  /-- Nothing else changes. -/
  acls : s'.acls = s.acls
  bigs : s'.bigs = s.bigs
  bises : s'.bises = s.bises
  requests : s'.requests = s.requests

/-- `n` units of 1.25 ms is an acceptable ISO interval. The SDU intervals are in microseconds and the latencies
in milliseconds; an SDU interval of zero means that there is no data in the direction. -/
def LegalInterval (sduC sduP : Nat) (framed : Bool) (latencyC latencyP n : Nat) : Prop :=
  if framed then
    sduC ≤ 1250 * n ∧ sduP ≤ 1250 * n ∧ ∀ m, sduC ≤ 1250 * m → sduP ≤ 1250 * m → n ≤ m
  else
    0 < n ∧ (sduC ≠ 0 → sduC ∣ 1250 * n) ∧ (sduP ≠ 0 → sduP ∣ 1250 * n) ∧
    (∀ m, 0 < m → (sduC ≠ 0 → sduC ∣ 1250 * m) → (sduP ≠ 0 → sduP ∣ 1250 * m) → n ≤ m) ∧
    (sduC ≠ 0 → 2 * (1250 * n) - sduC ≤ 1000 * latencyC) ∧
    (sduP ≠ 0 → 2 * (1250 * n) - sduP ≤ 1000 * latencyP)

end Verif.Iso
