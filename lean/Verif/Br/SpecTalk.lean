import Verif.Br.Spec
/-!
# Two devices and their voice, for C119

Two devices; their hosts give commands, packets are on their way, time goes by. What each of the two has with the other is one of four
things, and a packet that matters for it says one of four words.
-/
namespace Verif.Br
open Verif.Conn (Table)
open Verif.Sco (LinkParams)

/-- What a device has with another one: nothing, a request of its own without answer, a request of the other that its host did not
answer, or a synchronous connection with these parameters. -/
inductive Talk
  | none
  | asked
  | offered
  | on (l : LinkParams)

/-- The synchronous connections with a device, open or not. -/
def callsWith (s : Ctl) (a : Nat) : List Syn := (s.sco.filter (fun e => e.2.addr = a)).map Prod.snd

/-- A device has this with the device `a`, and nothing else. -/
def Talks (s : Ctl) (a : Nat) : Talk → Prop
  | .none => callsWith s a = []
  | .asked => ∃ c, callsWith s a = [c] ∧ c.state = .pending
  | .offered => ∃ c, callsWith s a = [c] ∧ (c.state = .sentEsco ∨ c.state = .sentSco)
  | .on l => ∃ c, callsWith s a = [c] ∧ c.state = .opened ∧ c.link = l

/-- What the packets for a device say about synchronous connections. -/
inductive Word
  | request
  | yes (l : LinkParams)
  | no
  | bye
  deriving DecidableEq

/-- What a packet says to the device `me`. Packets for the empty address are for everybody. -/
def word (me : Nat) (x : Nat × Pkt) : Option Word :=
  if x.1 = me ∨ x.1 = 0 then
    match x.2 with
    | .scoReq _ _ => some .request
    | .scoRsp st l => some (if st = 0 then .yes l else .no)
    | .scoDisc _ => some .bye
    | _ => none
  else none

/-- What packets say, in order. -/
def words (me : Nat) (q : List (Nat × Pkt)) : List Word := q.filterMap (word me)

/-- A patient host, with words on their way to its device: it does not reset the controller or end the link to a device, asks for a
synchronous connection only with a device with which it has none and no open request, answers only requests of others, and ends
connections only that it was told of, and not while the other's wish to end one is on its way. -/
def PatientHost (s : Ctl) (coming : List Word) : Cmd → Prop
  | .reset => False
  | .create a _ => a ≠ 0
  | .disconnect h _ => (∀ e ∈ s.acl, e.1 ≠ h) ∧ (∀ e ∈ s.sco, e.1 = h → e.2.state = .opened) ∧ .bye ∉ coming
  | .setupSync h _ _ => ∀ e ∈ s.acl, e.1 = h → callsWith s e.2.addr = []
  | .addSco h _ => ∀ e ∈ s.acl, e.1 = h → callsWith s e.2.addr = []
  | .accept a _ => ∀ c ∈ callsWith s a, c.state ≠ .pending
  | .acceptSync a _ => ∀ c ∈ callsWith s a, c.state ≠ .pending
  | .rejectSync a _ => ∀ c ∈ callsWith s a, c.state ≠ .pending
  | _ => True

/-- No link is silent for three seconds when it is looked at. -/
def InTime (s : Ctl) (now h : Nat) : Prop := ∀ e ∈ s.acl, e.1 = h → now ≤ e.2.last + 3000000000

/-- Both hosts are patient and the link is not lost. -/
def PatientNet (n : Net) (now : Nat) : NAct → Prop
  | .hostA c => PatientHost n.a (words n.a.addr n.toA) c
  | .hostB c => PatientHost n.b (words n.b.addr n.toB) c
  | .checkA h => InTime n.a now h
  | .checkB h => InTime n.b now h
  | _ => True

/-- The histories of two new devices whose steps are all allowed by `ok`. -/
inductive TalkReach (ok : Net → Nat → NAct → Prop) (a b : Ctl) : Net → Prop where
  | start : TalkReach ok a b ⟨a, b, [], []⟩
  | step {n n' now x ea eb} : TalkReach ok a b n → ok n now x → nstep n now x = some (n', ea, eb) → TalkReach ok a b n'

/-- No packet about synchronous connections is on its way. -/
def Settled (n : Net) : Prop := words n.a.addr n.toA = [] ∧ words n.b.addr n.toB = []

/-- The two agree: neither has anything; or one asked and the other's host is to answer; or both have a connection, with the same
parameters. -/
def Agree (n : Net) : Prop :=
  (Talks n.a n.b.addr .none ∧ Talks n.b n.a.addr .none) ∨
  (Talks n.a n.b.addr .asked ∧ Talks n.b n.a.addr .offered) ∨
  (Talks n.a n.b.addr .offered ∧ Talks n.b n.a.addr .asked) ∨
  ∃ l, Talks n.a n.b.addr (.on l) ∧ Talks n.b n.a.addr (.on l)

end Verif.Br
