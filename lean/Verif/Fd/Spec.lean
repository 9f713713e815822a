import Verif.Fd.Model

/-! What is asked of the sockets. -/
namespace Verif.Fd

/-- The descriptors that the live sockets have, one for each socket that has one. -/
def held : List (Nat × Obj) → List Nat
  | [] => []
  | (_, ⟨some f, _⟩) :: l => f :: held l
  | (_, ⟨none, _⟩) :: l => held l

/-- Nothing moves a socket: the program has no use of the move constructor. -/
def still (as : List Act) : Prop := ∀ i, .move i ∉ as

/-- Nothing asks for callbacks of the socket. -/
def unasked (i : Nat) (as : List Act) : Prop := ∀ b, .watch i b ∉ as

/-- Nothing asks the server to listen. -/
def unheard (s : Nat) (as : List Act) : Prop := ∀ b, .listen s b ∉ as

/-- The actions after which a socket is to be silent. -/
inductive Ends (i : Nat) : Act → Prop
  | unwatch : Ends i (.unwatch i)
  | close : Ends i (.close i)
  | destroy : Ends i (.destroy i)

/-- The actions after which a server is to be silent. -/
inductive Mutes (s : Nat) : Act → Prop
  | stop : Mutes s (.stop s)
  | shut : Mutes s (.shut s)
  | drop : Mutes s (.dropServer s)

end Verif.Fd
