import Verif.Ll.Model
/-!
# Two devices and their connection, for C121

Two LE devices: one advertises and the other may connect to it. Their hosts give commands, packets are on their way in order, time goes by.
-/
namespace Verif.Ll
open Verif.Le

/-- The two devices, and the packets on their way to each of them, in order. -/
structure Two where
  a : State
  b : State
  toA : List Packet := []
  toB : List Packet := []

/-- The packets among some outputs. -/
def sent (out : List Out) : List Packet := out.filterMap (fun o => match o with | .send p => some p | _ => none)

/-- What happens: something at the one or the other device other than the arrival of a packet, or the arrival of the first packet on its
way. -/
inductive TwoAct where
  | atA (o : Op)
  | atB (o : Op)
  | arriveA (rnd : Irk → Address) (now : Nat)
  | arriveB (rnd : Irk → Address) (now : Nat)

/-- Not the arrival of a packet. -/
def Op.own : Op → Bool
  | .receive .. => false
  | _ => true

/-- The two are alone: what one sends goes to the other. -/
def twoStep (ah : Hash) (ca cb : Config) (n : Two) : TwoAct → Option Two
  | .atA o => if o.own then match step ah ca n.a o with | .ok x => some { n with a := x.1, toB := n.toB ++ sent x.2.out } | _ => none else none
  | .atB o => if o.own then match step ah cb n.b o with | .ok x => some { n with b := x.1, toA := n.toA ++ sent x.2.out } | _ => none else none
  | .arriveA rnd now =>
    match n.toA with
    | [] => none
    | p :: q => match step ah ca n.a (.receive rnd now p) with | .ok x => some { n with a := x.1, toA := q, toB := n.toB ++ sent x.2.out } | _ => none
  | .arriveB rnd now =>
    match n.toB with
    | [] => none
    | p :: q => match step ah cb n.b (.receive rnd now p) with | .ok x => some { n with b := x.1, toB := q, toA := n.toA ++ sent x.2.out } | _ => none

/-- A connection of an initiator with an advertiser. -/
structure Tie where
  init : AddressWithType
  adv : AddressWithType
  params : LinkParams
  deriving DecidableEq

/-- What packets say about connections: a request, its acceptance, an end. -/
inductive LWord where
  | ask (t : Tie)
  | yes (t : Tie)
  | bye (src dst : Address)
  deriving DecidableEq

def lword : Packet → Option LWord
  | .connect i a q => some (.ask ⟨i, a, q⟩)
  | .connectComplete i a q => some (.yes ⟨i, a, q⟩)
  | .link s d (.disconnect _) => some (.bye s d)
  | _ => none

def lwords (q : List Packet) : List LWord := q.filterMap lword

/-- No request and no acceptance is on its way. -/
def Unasked (n : Two) : Prop := (∀ t, .ask t ∉ lwords n.toA) ∧ ∀ t, .yes t ∉ lwords n.toB

/-- The first host never initiates; the second asks for a connection only when it has none and no request of its device or its acceptance is
on its way, and does not reset the controller in that time either. -/
def PatientTwo (n : Two) : TwoAct → Prop
  | .atA (.cmd (.createConnection ..)) => False
  | .atA (.cmd (.extendedCreateConnection ..)) => False
  | .atB (.cmd (.createConnection ..)) => n.b.conns = [] ∧ Unasked n
  | .atB (.cmd (.extendedCreateConnection ..)) => n.b.conns = [] ∧ Unasked n
  | .atB .reset => Unasked n
  | _ => True

/-- The histories of two new devices whose steps are all allowed by `ok`. -/
inductive TwoReach (ah : Hash) (ca cb : Config) (ok : Two → TwoAct → Prop) : Two → Prop where
  | start (x y : Option Address) : TwoReach ah ca cb ok { a := initial x, b := initial y }
  | step {n n' : Two} {x : TwoAct} : TwoReach ah ca cb ok n → ok n x → twoStep ah ca cb n x = some n' → TwoReach ah ca cb ok n'

/-- Nothing about connections is on its way. -/
def SettledTwo (n : Two) : Prop := lwords n.toA = [] ∧ lwords n.toB = []

/-- Neither has a connection, or both have one, with each other: each knows the other by the address it uses, in opposite roles and with the
same parameters. -/
def AgreeTwo (n : Two) : Prop :=
  n.a.conns = [] ∧ n.b.conns = [] ∨
  ∃ k c k' c', n.a.conns = [(k, c)] ∧ n.b.conns = [(k', c')] ∧ c.own = c'.address ∧ c.address = c'.own ∧ c.params = c'.params ∧
    c.role = .peripheral ∧ c'.role = .central

end Verif.Ll
