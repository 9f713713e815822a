import Verif.Br.SpecBook
import Verif.Ll.SpecLinks
import Verif.Both.Model

/-!
# The connections the host of a device knows of, for C125

The host of a device with both controllers keeps one table of its connections: the book of `Br/SpecBook.lean` and the list
of `Ll/SpecLinks.lean`, both kept from events alone.
-/
namespace Verif.Both

/-- The steps of one controller in a history. -/
def brActs : List Act → List (Nat × Br.Act)
  | [] => []
  | .br now a :: as => (now, a) :: brActs as
  | .le _ :: as => brActs as

/-- The steps of the other one. -/
def leOps : List Act → List Ll.Op
  | [] => []
  | .br .. :: as => leOps as
  | .le o :: as => o :: leOps as

/-- The list of LE connections after some operations. -/
def linksAfter (l : Ll.Links) : List Ll.Op → List Ll.Obs → Ll.Links
  | o :: os, b :: bs => linksAfter (l.note o b) os bs
  | _, _ => l

/-- A connection in the table. -/
inductive Peer
  | br (addr : Nat) (own : Br.Role)
  | le (c : Ll.LeConn)

/-- The entries under a handle. There may be two, as far as this definition goes. -/
def entries (seen : List Br.Seen) (l : Ll.Links) (k : Nat) : List Peer :=
  ((Br.bookOf seen k).map (fun c => Peer.br c.1 c.2)).toList ++ ((l k).map Peer.le).toList

/-- A device after construction. -/
def Dev.fresh (addr : Nat) (i : Br.Info) (n : Nat) (a : Option Le.Address) : Dev := ⟨.fresh addr i n, Ll.initial a⟩

/-- A history the host can follow: devices have addresses other than 0, the events are not masked. -/
def Followed (as : List Act) : Prop := ∀ x ∈ brActs as, Br.Named x.2 ∧ Br.Frank x.2

/-- What a host is told: events and the status of the command, without the packets to other devices. -/
def Sent.told : Sent → Bool
  | .packet .. => false
  | .le (.send _) => false
  | _ => true

/-- The end of a connection. -/
def Sent.ends (k : Nat) : Sent → Bool
  | .event (.disconnComplete h _) => h = k
  | .le (.disconnected h _) => h = k
  | _ => false

end Verif.Both
