import Verif.Iso.SpecCreate
/-!
# What the host knows of its connected isochronous streams, for C115

The host keeps a note for every handle of a stream: from its own accepted commands, from the events it gets and from the loss of
links, of which it is told as well. Nothing here looks into the link layer.
-/
namespace Verif.Iso

/-- What the host knows of a stream. The number is the handle of the link. -/
inductive Phase where
  | idle
  /-- It asked for the stream, by LE Create CIS or LE Accept CIS Request, and has no answer yet. -/
  | asked (acl : Nat)
  /-- The peer asked for the stream, and the host did not answer yet. -/
  | offered (acl : Nat)
  | established (acl : Nat)
  deriving DecidableEq, Repr

/-- A note for every handle. -/
abbrev Notes := Nat → Phase

def Notes.none : Notes := fun _ => .idle

def Notes.set (n : Notes) (h : Nat) (p : Phase) : Notes := fun k => if k = h then p else n k

/-- The answer to a request. -/
def Phase.answered : Phase → Nat → Phase
  | .asked acl, 0 => .established acl
  | _, _ => .idle

/-- Events. -/
def Notes.hear (n : Notes) : Out → Notes
  | .event (.cisEstablished e) => n.set e.handle ((n e.handle).answered e.status)
  | .event (.cisRequest acl h _ _) => n.set h (.offered acl)
  | .event (.disconnectionComplete h _) => n.set h .idle
  | _ => n

/-- The host accepts a stream. -/
def Phase.accepted : Phase → Phase
  | .offered acl => .asked acl
  | p => p

/-- Commands that were accepted, and links that are lost. -/
def Notes.act (n : Notes) (outs : List Out) : Op → Notes
  | .hci (.createCis cs) => if .event (.createCisStatus 0) ∈ outs then cs.foldl (fun n p => n.set p.1 (.asked p.2)) n else n
  | .hci (.acceptCis h) => if .event (.acceptCisStatus 0) ∈ outs then n.set h (n h).accepted else n
  | .hci (.rejectCis h _) => if .event (.rejectCisComplete 0 h) ∈ outs then n.set h .idle else n
  | .removeLink acl _ => fun k => if n k = .offered acl then .idle else n k
  | _ => n

/-- The notes after a step. -/
def Notes.note (n : Notes) (x : Op × List Out) : Notes := x.2.foldl Notes.hear (n.act x.2 x.1)

/-- The notes after a history. -/
def notesOf (tr : List (Op × List Out)) : Notes := tr.foldl Notes.note .none

/-- A step that does not remove a stream for which a request is queued (see `C29_remove_queued_violated`), and no link is lost for
the reason 0, success, which reads as if its streams were established (see `C115_reason_violated`). -/
def Sane (s : State) (op : Op) : Prop := KeepsQueued s op ∧ ∀ acl, op ≠ .removeLink acl 0

end Verif.Iso
