import Verif.Iso.SpecCreate
/-!
# Specification of what the two ends of a CIS are told
-/

namespace Verif.Iso

/-- The LL_CIS_REQ for the CIS `cisId` of the CIG `cigId` among the packets, the last one. -/
def lastReqIn (cigId cisId : Nat) : List Out → Option CisReq
  | [] => none
  | .llcp _ (.cisReq q) :: os =>
    match lastReqIn cigId cisId os with
    | some q' => some q'
    | none => if q.cigId = cigId ∧ q.cisId = cisId then some q else none
  | _ :: os => lastReqIn cigId cisId os

/-- The last LL_CIS_REQ that was sent for a CIS. -/
def lastSent (cigId cisId : Nat) (tr : List (Op × List Out)) : Option CisReq :=
  lastReqIn cigId cisId (tr.flatMap (·.2))

/-- The last LL_CIS_REQ that was received and announced to the host with the handle `h`, with the handle of the ACL
connection. The argument is the history, latest first. -/
def lastReceivedRev (h : Nat) : List (Op × List Out) → Option (Nat × CisReq)
  | [] => none
  | (.llcp acl (.cisReq q), [.event (.cisRequest _ h' _ _)]) :: tr =>
    if h' = h then some (acl, q) else lastReceivedRev h tr
  | _ :: tr => lastReceivedRev h tr

def lastReceived (h : Nat) (tr : List (Op × List Out)) : Option (Nat × CisReq) := lastReceivedRev h tr.reverse

/-- The code of a PHY in HCI events; in LL_CIS_REQ a PHY is a bit. -/
inductive PhyCode : Nat → Nat → Prop where
  | le1m : PhyCode 1 1
  | le2m : PhyCode 2 2
  | coded : PhyCode 4 3

/-- The event carries the parameters that do not belong to a direction, and the PHYs. -/
structure TellsCommon (e : Established) (q : CisReq) (cigSyncDelay cisSyncDelay : Nat) : Prop where
  status : e.status = success
  cigSyncDelay : e.cigSyncDelay = cigSyncDelay
  cisSyncDelay : e.cisSyncDelay = cisSyncDelay
  nse : e.nse = q.nse
  isoInterval : e.isoInterval = q.isoInterval
  phyC : PhyCode q.phyC e.phyC
  phyP : PhyCode q.phyP e.phyP

/-- The event carries the burst numbers, flush timeouts and PDU sizes of the request, for each direction. -/
structure TellsDirections (e : Established) (q : CisReq) : Prop where
  bnC : e.bnC = q.bnC
  bnP : e.bnP = q.bnP
  ftC : e.ftC = q.ftC
  ftP : e.ftP = q.ftP
  maxPduC : e.maxPduC = q.maxPduC % 256
  maxPduP : e.maxPduP = q.maxPduP % 256

/-- The event with the directions of the burst numbers, flush timeouts and PDU sizes exchanged. -/
def Established.exchanged (e : Established) : Established :=
  { e with bnC := e.bnP, bnP := e.bnC, ftC := e.ftP, ftP := e.ftC, maxPduC := e.maxPduP, maxPduP := e.maxPduC }

/-- Two events tell the same about a CIS; the handles are local. -/
def SameParameters (e e' : Established) : Prop := { e with handle := 0 } = { e' with handle := 0 }

end Verif.Iso
