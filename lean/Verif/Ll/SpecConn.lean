import Verif.Ll.SpecScan
/-!
# LE connections: specification (C36, C37, C52, C53)
-/

namespace Verif.Ll
open Verif.Le

/-- The LE Connection Complete events among some outputs. -/
def connectedOf (out : List Out) : List (Nat × LeConn) :=
  out.filterMap (fun o => match o with | .connected h c => some (h, c) | _ => none)

/-- The connect requests among some outputs. -/
def requestsOf (out : List Out) : List (AddressWithType × AddressWithType × LinkParams) :=
  out.filterMap (fun o => match o with | .send (.connect i a q) => some (i, a, q) | _ => none)

/-- A connection between the two addresses exists. -/
def HasConnection (s : State) (source destination : Address) : Prop :=
  ∃ h c, (h, c) ∈ s.conns ∧ c.address.address = source ∧ c.own.address = destination

/-- The (resolved) device `r` may connect to an advertiser: a directed advertiser
accepts its peer only, others whom their filter policy lets connect. -/
def MayConnect (s : Le.State) (directed : Prop) (peer : AddressWithType)
    (policy : AdvertisingFilterPolicy) (r : AddressWithType) : Prop :=
  (directed → r = peer) ∧
  (¬ directed → policy = .listedConnect ∨ policy = .listedScanAndConnect → Listed s r)

end Verif.Ll
