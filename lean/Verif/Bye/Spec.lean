import Verif.Bye.Model
import Verif.Br.Spec
/-! # What a device that leaves should do to the others -/
namespace Verif.Bye

/-- The packets for the device `y` among those that are sent. -/
def sentTo (y : Nat) (out : List (Nat × Br.Pkt)) : List Br.Pkt := (out.filter (fun o => o.1 = y)).map (·.2)

/-- The packets `ps` of the device `x` arrive at `t`, at the times and with the signal strengths given. -/
def arrive (t : Br.Ctl) (x : Nat) (arr : List (Nat × Nat × Br.Pkt)) : Option (Br.Ctl × List Br.Seen) :=
  Br.run t (arr.map (fun e => (e.1, .packet x t.addr e.2.1 e.2.2)))

/-- `t` without its connections with `x`. -/
def without (t : Br.Ctl) (x : Nat) : Br.Ctl :=
  { t with acl := t.acl.filter (fun e => e.2.addr ≠ x), sco := t.sco.filter (fun e => e.2.addr ≠ x), lm := t.lm.erase x }

/-- The handles of the connections of `t` with `x`, those of the synchronous connections first. -/
def handlesWith (t : Br.Ctl) (x : Nat) : List Nat :=
  (t.sco.filter (fun e => e.2.addr = x)).map (·.1) ++ (t.acl.filter (fun e => e.2.addr = x)).map (·.1)

/-- The LE connections of a controller between its address `own` and the address `peer`, in the order of its table. -/
def between (t : Ll.State) (peer own : Le.Address) : List (Nat × Ll.LeConn) :=
  t.conns.filter (fun e => e.2.address.address = peer && e.2.own.address = own)

end Verif.Bye
