import Verif.Lmp.Manager
/-!
# C123: how much link managers say

Any number of devices with link managers, and the packets on their way. Links are made and removed by the devices at any time and without
regard to each other, packets are delivered in any order or get lost, and the hosts send any commands. The number of packets that are sent
is counted.
-/
namespace Verif.Lmp.Say

/-- The devices; the device at position `i` has the address `i + 1`. The packets on their way, each with its source and its destination. -/
structure Talk where
  mgrs : List Mgr
  air : List (Nat × Nat × Lmp)

/-- New devices with some features. -/
def Talk.new (fs : List Feats) : Talk := ⟨fs.map Mgr.init, []⟩

inductive TalkAct where
  /-- The host of a device sends a command. -/
  | host (i : Nat) (c : Cmd)
  /-- A device has a new link, or one less. -/
  | add (i peer : Nat)
  | remove (i peer : Nat)
  /-- A link manager runs. -/
  | tick (i : Nat)
  /-- One of the packets on their way is delivered, or lost. -/
  | deliver (k : Nat)
  | lose (k : Nat)

/-- The packets among the outputs of a device. -/
def said (i : Nat) (o : List MOut) : List (Nat × Nat × Lmp) := o.filterMap fun
  | .lmp to p => some (i + 1, to, p)
  | .hci .. => none

/-- A device does something; the packets it sends. -/
def talkAt (n : Talk) (i : Nat) (op : Op) : Option (Talk × List (Nat × Nat × Lmp)) :=
  match n.mgrs[i]? with
  | none => none
  | some m =>
    match step m op with
    | .ok m' o => some (⟨n.mgrs.set i m', n.air ++ said i o⟩, said i o)
    | _ => none

def talkStep (n : Talk) : TalkAct → Option (Talk × List (Nat × Nat × Lmp))
  | .host i c => talkAt n i (.hci (some c))
  | .add i a => talkAt n i (.add a)
  | .remove i a => talkAt n i (.remove a)
  | .tick i => talkAt n i .tick
  | .deliver k =>
    match n.air[k]? with
    | some (source, to + 1, p) => talkAt { n with air := n.air.eraseIdx k } to (.lmp source (some p))
    | _ => none
  | .lose k => some ({ n with air := n.air.eraseIdx k }, [])

/-- A history, with all the packets that were sent. -/
def runTalk : List TalkAct → Talk → Option (Talk × List (Nat × Nat × Lmp))
  | [], n => some (n, [])
  | x :: xs, n => (talkStep n x).bind fun r => (runTalk xs r.1).bind fun q => some (q.1, r.2 ++ q.2)

/-- Authentication Requested. -/
def TalkAct.authenticates : TalkAct → Bool
  | .host _ c => c.kind = .authenticationRequested
  | _ => false

/-- Set Connection Encryption. -/
def TalkAct.encrypts : TalkAct → Bool
  | .host _ c => c.kind = .setConnectionEncryption
  | _ => false

end Verif.Lmp.Say
