import Verif.Iso.Model
/-!
# Specification of the accounting of CIS creation

The definitions look only at the operations and at the packets that result from them.
-/

namespace Verif.Iso

open Verif.Le (mapFind)

/-- An observed history: every operation with the packets it made the link layer send. -/
inductive Trace : State → List (Op × List Out) → State → Prop where
  | nil (s) : Trace s [] s
  | snoc {s s' s'' tr env op outs} : Trace s tr s' → step env s' op = .ok (s'', outs) →
      Trace s (tr ++ [(op, outs)]) s''

/-- An observed history in which every operation satisfies `P` in the state in which it is executed. -/
inductive TraceOf (P : State → Op → Prop) : State → List (Op × List Out) → State → Prop where
  | nil (s) : TraceOf P s [] s
  | snoc {s s' s'' tr env op outs} : TraceOf P s tr s' → P s' op → step env s' op = .ok (s'', outs) →
      TraceOf P s (tr ++ [(op, outs)]) s''

/-- How many times the host asked for the CIS `h`: by an accepted LE Create CIS command with `h` in its list, or by
an accepted LE Accept CIS Request command. -/
def asked (h : Nat) : Op × List Out → Nat
  | (.hci (.createCis cs), outs) =>
    if .event (.createCisStatus success) ∈ outs then cs.countP (fun p => p.1 = h) else 0
  | (.hci (.acceptCis h'), outs) => if .event (.acceptCisStatus success) ∈ outs ∧ h' = h then 1 else 0
  | _ => 0

/-- Is the packet a CIS Established event for `h`? -/
def Out.establishes (h : Nat) : Out → Bool
  | .event (.cisEstablished e) => e.handle = h
  | _ => false

/-- Is the packet a Disconnection Complete event for `h`? -/
def Out.disconnects (h : Nat) : Out → Bool
  | .event (.disconnectionComplete h' _) => h' = h
  | _ => false

/-- Is the packet an LL_CIS_REQ? -/
def Out.isCisReq : Out → Bool
  | .llcp _ (.cisReq _) => true
  | _ => false

def totalAsked (h : Nat) (tr : List (Op × List Out)) : Nat := (tr.map (asked h)).sum
def totalEstablished (h : Nat) (tr : List (Op × List Out)) : Nat := (tr.map (fun e => e.2.countP (Out.establishes h))).sum
def totalDisconnected (h : Nat) (tr : List (Op × List Out)) : Nat := (tr.map (fun e => e.2.countP (Out.disconnects h))).sum

/-- The procedure of the CIS waits for the peer. -/
def CisState.isPending : CisState → Bool
  | .pendingRsp | .pendingInd => true
  | _ => false

/-- The number of unanswered requests for the CIS `h`: queued ones, and the one that waits for the peer. -/
def outstanding (s : State) (h : Nat) : Nat :=
  s.requests.countP (fun r => r.handle = h) +
    (if (findCis s.cises h).any (fun c => c.state.isPending) then 1 else 0)

/-- The operation does not remove a CIS for which a request is queued. -/
def KeepsQueued (s : State) : Op → Prop
  | .hci (.removeCig k) => ∀ r ∈ s.requests, r.cigId ≠ k
  | .llcp acl (.terminateInd cigId cisId _) => ∀ r ∈ s.requests, ∀ c ∈ s.cises, c.handle = r.handle →
      ¬ (c.acl = some acl ∧ c.cigId = cigId ∧ c.cisId = cisId)
  | _ => True

/-- The operation does not end the procedure of a CIS that waits for the peer, except by the peer's answer. -/
def KeepsPending (s : State) : Op → Prop
  | .hci (.disconnect h _) => ∀ c ∈ s.cises, c.handle = h → c.state ≠ .pendingRsp
  | .llcp acl (.terminateInd cigId cisId _) => ∀ c ∈ s.cises, c.acl = some acl → c.cigId = cigId → c.cisId = cisId →
      c.state ≠ .pendingRsp
  | .removeLink acl _ => ∀ c ∈ s.cises, c.acl = some acl → c.state ≠ .pendingRsp
  | _ => True

end Verif.Iso
