import Verif.Conn.Model
/-! # What C05 and C06 talk about: the set of live connections -/

namespace Verif.Conn

/-- A connection of any kind. -/
inductive Conn where
  | acl (c : AclConn)
  | le (c : LeConn)
  | sco (c : ScoConn)
  deriving DecidableEq, Repr

/-- The live connections with their handles. -/
def live (s : Handler) : List (Nat × Conn) :=
  s.acl.map (fun e => (e.1, .acl e.2)) ++ s.sco.map (fun e => (e.1, .sco e.2)) ++
    s.le.map (fun e => (e.1, .le e.2))

/-- The handles the specification reserves for each kind. -/
def InRange (h : Nat) : Conn → Prop
  | .acl _ => h ≤ 0x0FF
  | .sco _ => 0x100 ≤ h ∧ h ≤ 0x1FF
  | .le _ => 0x200 ≤ h ∧ h ≤ 0x2FF

/-- A state the handler can get to from start-up. -/
def Reachable (s : Handler) : Prop := ∃ ops, run Handler.init ops = some s

end Verif.Conn
