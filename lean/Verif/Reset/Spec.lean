import Verif.Br.Spec
import Verif.Pol.Model
import Verif.Ll.Model
import Verif.Apcf.Model
import Verif.Reg.Model
import Verif.Flow.Model
/-!
# Forgetting, for C118

A machine that gets inputs one after the other and shows something at each of them, or fails. It forgets its past with some inputs
if what it shows afterwards, to whatever follows, is the same after every past. It is as new if it is what a new one shows.

The machines are the parts of a controller: the BR/EDR controller, with the commands about its connections and the pairing data, the
LE controller, the vendor specific filters of advertising reports, the registers, and the data path.
-/
namespace Verif.Reset

variable {S I O : Type}

/-- What a machine shows, one for each input; nothing if it fails. -/
def look (step : S → I → Option (S × O)) (s : S) : List I → Option (List O)
  | [] => some []
  | i :: is => match step s i with
    | none => none
    | some (s', o) => (look step s' is).map (o :: ·)

/-- What is shown after the first inputs. -/
def later (n : Nat) (r : Option (List O)) : Option (List O) := r.map (List.drop n)

/-- After `pre` what a machine shows does not depend on what was before `pre`, for pasts of inputs that are `ok`, in which the
machine does not fail. Neither does it depend on the past whether it fails. -/
def Forgets (step : S → I → Option (S × O)) (start : S) (ok : I → Prop) (pre : List I) : Prop :=
  ∀ as bs cs, (∀ x ∈ as, ok x) → (∀ x ∈ bs, ok x) → look step start as ≠ none → look step start bs ≠ none →
    later (as.length + pre.length) (look step start (as ++ pre ++ cs)) = later (bs.length + pre.length) (look step start (bs ++ pre ++ cs))

/-- After `pre` the machine shows what a new one shows. -/
def AsNew (step : S → I → Option (S × O)) (start : S) (ok : I → Prop) (pre : List I) : Prop :=
  ∀ as cs, (∀ x ∈ as, ok x) → look step start as ≠ none →
    later (as.length + pre.length) (look step start (as ++ pre ++ cs)) = look step start cs

/-- The BR/EDR controller: the status of commands, the packets sent and the events. -/
def classic (s : Br.Ctl) (x : Nat × Br.Act) : Option (Br.Ctl × Br.Status × List (Nat × Br.Pkt) × List Br.Ev) :=
  match Br.step s x.1 x.2 with
  | .ok st s' out ev => some (s', st, out, ev)
  | _ => none

/-- What a host can not change about a device. -/
def fixed (i : Br.Info) : Nat × Nat × Nat × Nat × Nat := (i.features0, i.features2, i.version, i.subversion, i.company)

/-- Nobody has the empty address, and the commands that say what a device tells about itself leave its features and version. -/
def Fair (i : Br.Info) (a : Br.Act) : Prop := Br.Named a ∧ ∀ j, a = .cmd (.setInfo j) → fixed j = fixed i

/-- The BR/EDR controller with the commands about its connections. -/
def policy (p : Pol.P) (x : Nat × Pol.PAct) : Option (Pol.P × Pol.Reply × List (Nat × Br.Pkt) × List Pol.PEv) :=
  (Pol.pstep p x.1 x.2).map (fun o => (o.p, o.reply, o.out, o.ev))

/-- The same for it. -/
def FairP (i : Br.Info) : Pol.PAct → Prop
  | .host (.base c) => Fair i (.cmd c)
  | .bredr a => Fair i a
  | _ => True

/-- The LE controller. -/
def le (ah : Ll.Hash) (cfg : Le.Config) (s : Ll.State) (o : Ll.Op) : Option (Ll.State × Ll.Obs) :=
  match Ll.step ah cfg s o with
  | .ok x => some x
  | _ => none

/-- The filters of advertising reports. -/
def filters (c : Apcf.Caps) (s : Apcf.St) (x : Apcf.Cmd) : Option (Apcf.St × Apcf.Res) :=
  match Apcf.step c s x with
  | (.abort, _) => none
  | (r, s') => some (s', r)

/-- The registers. -/
def registers (c : Reg.Caps) (s : Reg.St) (x : Reg.Act) : Option (Reg.St × Reg.Res) :=
  match Reg.step c s x with
  | (.crash, _) => none
  | (r, s') => some (s', r)

/-- The bytes of the Reset command. -/
def resetBytes : List Nat := [0x03, 0x0c, 0x00]

end Verif.Reset
