import Verif.Iso.SpecCreate
/-!
# Two devices and the isochronous streams of their link, for C116

Two controllers with a link between them. Their hosts give commands, the PDUs of each are delivered to the other in order, and the
iteration order of the tables of streams changes as it likes. A stream is named by its two identifiers, which both sides know.
-/
namespace Verif.Iso

/-- The central `a`, the peripheral `b` and the PDUs on the way from one to the other, the oldest first. -/
structure Pair where
  a : State
  b : State
  ab : List Pdu
  ba : List Pdu

/-- What is sent over a link. -/
def sentOver (acl : Nat) (outs : List Out) : List Pdu :=
  outs.filterMap (fun o => match o with
    | .llcp l p => if l = acl then some p else none
    | .event _ => none)

/-- A step of the two devices: a command of one of the hosts, the delivery of a PDU, or a new iteration order. -/
inductive Move where
  | hostA (c : Cmd)
  | hostB (c : Cmd)
  | toA
  | toB
  | orderA (l : List Cis)
  | orderB (l : List Cis)

/-- The step `m` leads from `p` to `q`. `la` and `lb` are the handles of the link on the two sides. -/
inductive PairStep (la lb : Nat) (p : Pair) : Move → Pair → Prop where
  | hostA {env c a outs} : step env p.a (.hci c) = .ok (a, outs) →
      PairStep la lb p (.hostA c) { p with a := a, ab := p.ab ++ sentOver la outs }
  | hostB {env c b outs} : step env p.b (.hci c) = .ok (b, outs) →
      PairStep la lb p (.hostB c) { p with b := b, ba := p.ba ++ sentOver lb outs }
  | toA {env x rest a outs} : p.ba = x :: rest → step env p.a (.llcp la x) = .ok (a, outs) →
      PairStep la lb p .toA { p with a := a, ab := p.ab ++ sentOver la outs, ba := rest }
  | toB {env x rest b outs} : p.ab = x :: rest → step env p.b (.llcp lb x) = .ok (b, outs) →
      PairStep la lb p .toB { p with b := b, ba := p.ba ++ sentOver lb outs, ab := rest }
  | orderA {env l a outs} : step env p.a (.rehash l) = .ok (a, outs) → PairStep la lb p (.orderA l) { p with a := a }
  | orderB {env l b outs} : step env p.b (.rehash l) = .ok (b, outs) → PairStep la lb p (.orderB l) { p with b := b }

/-- Nobody has asked the other side to end a stream. -/
def NoEnd (l : List Pdu) : Prop := ∀ i j e, .terminateInd i j e ∉ l

/-- The hosts are patient: the central's host creates streams only when no creation is under way, does not end a stream it is creating
and does not remove a group of which streams are still to be created; and no host ends a stream while the other side's wish to end
one is on its way to it. -/
def Patient (p : Pair) : Move → Prop
  | .hostA (.createCis _) => p.a.requests = [] ∧ ∀ c ∈ p.a.cises, c.state ≠ .pendingRsp
  | .hostA (.disconnect h _) => (∀ c ∈ p.a.cises, c.handle = h → c.state ≠ .pendingRsp) ∧ NoEnd p.ba
  | .hostA (.removeCig k) => ∀ r ∈ p.a.requests, r.cigId ≠ k
  | .hostB (.disconnect _ _) => NoEnd p.ab
  | _ => True

/-- The link was just made. -/
def Pair.start (la lb : Nat) : Pair := ⟨{ acls := [(la, .central)] }, { acls := [(lb, .peripheral)] }, [], []⟩

/-- The histories of two devices whose steps are all allowed by `ok`. -/
inductive PairReach (ok : Pair → Move → Prop) (la lb : Nat) : Pair → Prop where
  | start : PairReach ok la lb (.start la lb)
  | step {p q m} : PairReach ok la lb p → ok p m → PairStep la lb p m q → PairReach ok la lb q

/-- The side has the stream `y` over the link `acl`. -/
def HasStream (s : State) (acl : Nat) (y : Nat × Nat) : Prop :=
  ∃ c ∈ s.cises, c.acl = some acl ∧ (c.cigId, c.cisId) = y ∧ c.state = .connected

/-- The central waits for the answer to its request for the stream `y`. -/
def Asking (s : State) (acl : Nat) (y : Nat × Nat) : Prop :=
  ∃ c ∈ s.cises, c.acl = some acl ∧ (c.cigId, c.cisId) = y ∧ c.state = .pendingRsp

/-- The peripheral's host was asked for the stream `y` and did not answer. -/
def Offered (s : State) (acl : Nat) (y : Nat × Nat) : Prop :=
  ∃ c ∈ s.cises, c.acl = some acl ∧ (c.cigId, c.cisId) = y ∧ c.state = .pendingAccept

end Verif.Iso
