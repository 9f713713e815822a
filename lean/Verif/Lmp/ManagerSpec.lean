import Verif.Lmp.Manager

/-!
# What the host may expect of the link manager

Vocabulary for C35, in terms of the calls made to the link manager and of what it sent.
-/

namespace Verif.Lmp

/-- The call hands over a command of kind `k` about address `a` with `P a k`. -/
def Op.isCmd (P : Nat → Kind → Bool) : Op → Bool
  | .hci (some c) => P c.addr c.kind
  | _ => false

/-- The command complete or command status event of a command of kind `k` about address `a` with `P a k`. -/
def MOut.isAnswer (P : Nat → Kind → Bool) : MOut → Bool
  | .hci a (.answer k _) => P a k
  | _ => false

/-- The link has yet to process such a command. -/
def Link.holds (P : Nat → Kind → Bool) (l : Link) : Bool :=
  match l.slot with
  | some c => P c.addr c.kind
  | none => false

/-- The number of commands of kind `k` in a history. -/
def commands (k : Kind) (ops : List Op) : Nat := ops.countP (Op.isCmd (fun _ k' => k' = k))
def commandsFor (a : Nat) (k : Kind) (ops : List Op) : Nat := ops.countP (Op.isCmd (fun a' k' => a' = a && k' = k))

/-- The number of answers to commands of kind `k`. -/
def answered (k : Kind) (outs : List MOut) : Nat := outs.countP (MOut.isAnswer (fun _ k' => k' = k))
def answeredFor (a : Nat) (k : Kind) (outs : List MOut) : Nat := outs.countP (MOut.isAnswer (fun a' k' => a' = a && k' = k))

/-- The number of commands of kind `k` that wait for a procedure to take them. -/
def waiting (k : Kind) (m : Mgr) : Nat := m.links.countP (Link.holds (fun _ k' => k' = k))

/-- The peers that are connected at the end of a history. -/
def linked : List Op → List Nat := fun ops =>
  ops.foldl (fun s op =>
    match op with
    | .add a => s ++ [a]
    | .remove a => s.erase a
    | _ => s) []

/-- A packet that a procedure can digest: the IO capability fields have values the specification lists,
the length of a public key is that of one of the two curves, and a commitment is the value the code
expects. -/
def Lmp.wellFormed : Lmp → Bool
  | .ioReq p => p.isSome
  | .ioRes p => p.isSome
  | .encapsulatedHeader n => n = 48 || n = 64
  | .confirm z => z
  | _ => true

/-- What a well-behaved host and well-behaved peers do. `ops` and `outs` are the calls so far and what was
sent so far. The host sends commands that the link manager knows, about a real address, one at a time;
packets are well-formed; there is one link for each peer, and at most seven; links that exist are removed. -/
def Allowed (ops : List Op) (outs : List MOut) : Op → Prop
  | .hci c => ∃ c', c = some c' ∧ c'.kind ≠ .oobExtended ∧ c'.addr ≠ emptyAddress ∧
      ops.countP (Op.isCmd (fun _ _ => true)) = outs.countP (MOut.isAnswer (fun _ _ => true))
  | .lmp _ p => ∃ p', p = some p' ∧ p'.wellFormed = true
  | .add a => a ≠ emptyAddress ∧ a ∉ linked ops ∧ (linked ops).length < 7
  | .remove a => a ∈ linked ops
  | .tick => True

/-- The histories in which all calls are allowed and none has ended the process. -/
inductive History (f : Feats) : List Op → List MOut → Mgr → Prop
  | start : History f [] [] (.init f)
  | next {ops outs m op m' o} : History f ops outs m → Allowed ops outs op → step m op = .ok m' o →
      History f (ops ++ [op]) (outs ++ o) m'

end Verif.Lmp
