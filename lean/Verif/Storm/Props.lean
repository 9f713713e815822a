import Verif.Storm.Lemmas
import Verif.Ll.PropsTwo
import Verif.Br.PropsFail
/-! # C122: the talk of the controllers ends -/
namespace Verif.Storm
open Verif

/-- Whatever a controller sends when it receives a packet is what such a packet can cause: one kind of answer, to the sender. -/
theorem C122_answers {ah : Ll.Hash} {cfg : Le.Config} {d d' : Dev} {p q : Heard} {out : List Heard} (h : Gets ah cfg d p d' out)
    (hq : q ∈ out) : Causes p q := gets_causes h hq

/-- A packet of BR/EDR is answered at most once; so are an LE connection request and the packets of an LE connection, except that the
acceptance of a stream is followed by its indication and the request for the next stream. An advertisement gets a scan request and a
connection request at most. (A scan request is answered by every advertising set with the address.) -/
theorem C122_few {ah : Ll.Hash} {cfg : Le.Config} {d d' : Dev} {p : Heard} {out : List Heard} (h : Gets ah cfg d p d' out) :
    match p with
    | .le (.legacyAdv _) => out.length ≤ 2
    | .le (.extAdv _) => out.length ≤ 2
    | .le (.connect ..) => out.length ≤ 1
    | .le _ => True
    | .iso _ => out.length ≤ 2
    | _ => out.length ≤ 1 := gets_few h

/-- However many devices there are, whatever states they are in, whatever is on its way and in whatever order it is delivered, packets
cannot be delivered for ever. -/
theorem C122_ends (ah : Ll.Hash) (cfg : Nat → Le.Config) : 
    ¬ ∃ (f : Nat → Net) (reach : Nat → List Nat), ∀ i, Delivers ah cfg (reach i) (f i) (f (i + 1)) := by
  rintro ⟨f, reach, hf⟩
  have key : ∀ l : List Nat, ∀ i, l = ((f i).air.map fun e => rank e.2) → False := by
    intro l
    induction l using less_wf.induction with
    | _ l ih =>
      rintro i rfl
      exact ih _ (delivers_less (hf i)) (i + 1) rfl
  exact key _ 0 rfl

/-- From every state, after some deliveries nothing is on its way, or the next packet makes its receiver fail. -/
theorem C122_silence (ah : Ll.Hash) (cfg : Nat → Le.Config) (reach : Net → List Nat) (n : Net) : ∃ m, Later ah cfg reach n m ∧
    (m.air = [] ∨ ∃ i p r, m.air = (i, p) :: r ∧ ∀ d out, ¬ Gets ah (cfg i) (m.dev i) p d out) := by
  generalize hl : (n.air.map fun e => rank e.2) = l
  induction l using less_wf.induction generalizing n with
  | _ l ih =>
    subst hl
    cases ha : n.air with
    | nil => exact ⟨n, .refl n, .inl ha⟩
    | cons e r =>
      obtain ⟨i, p⟩ := e
      by_cases hg : ∃ d out, Gets ah (cfg i) (n.dev i) p d out
      · obtain ⟨d, out, hg⟩ := hg
        have hd : Delivers ah cfg (reach n) n _ := .mk n [] r i p d out ha hg
        obtain ⟨m, h1, h2⟩ := ih _ (delivers_less hd) _ rfl
        exact ⟨m, .step hd h1, h2⟩
      · exact ⟨n, .refl n, .inr ⟨i, p, r, ha, fun d out h => hg ⟨d, out, h⟩⟩⟩

/-! ### Examples -/

/-- Outputs of a step of the LE controller. -/
def leOut (s : Ll.State) (cfg : Le.Config) (p : Ll.Packet) : Option (List Ll.Out) :=
  match Ll.step (fun _ _ => 0) cfg s (.receive (fun _ => 0) 0 p) with
  | .ok (_, o) => some o.out
  | _ => none

/-- B wants to connect to A. -/
def eager : Ll.State := ((Ll.runTwo (fun _ _ => 0) Ll.cfgA Ll.cfgB [Ll.wants] Ll.twoNew).getD Ll.twoNew).b
/-- A advertises. -/
def inviting : Ll.State := ((Ll.runTwo (fun _ _ => 0) Ll.cfgA Ll.cfgB (Ll.advertises 0) Ll.twoNew).getD Ll.twoNew).a

/-- A device without connections, apart from what the LE state says. -/
def device (s : Ll.State) : Dev where
  le := s
  link := ⟨fun h => if h = 0x200 then some (Link.Conn.fresh .peripheral) else none, 7, 7, 7, 7, 7, 0, 0, 0, 0, 0, 0, 0, []⟩
  sub := fun _ => ⟨.central, .initial 0x18 0 0x64, ⟨1, 1, 0, 0, 0xc80⟩, false⟩
  cs := fun _ => Cs.End.fresh true true ⟨true, true, true, true, true⟩ ⟨1, 1, 1, 1, 0, 0, 0, 0, 0⟩ none
  iso := {}
  br := Br.exampleA

theorem leOut_gets {s : Ll.State} {cfg : Le.Config} {p : Ll.Packet} {l : List Ll.Out} (h : leOut s cfg p = some l) :
    ∃ d', Gets (fun _ _ => 0) cfg (device s) (.le p) d' (sends l) := by
  unfold leOut at h
  split at h
  · rename_i s' o e
    cases h
    exact ⟨_, .le (device s) _ 0 p s' o e⟩
  · cases h

/-- What A advertises. -/
def invitation : Ll.LegacyPdu := ⟨⟨0xA, .publicDevice⟩, ⟨0, .publicDevice⟩, .advInd, []⟩

/-- B's request. -/
def request : Ll.Packet := .connect ⟨0xB, .publicDevice⟩ ⟨0xA, .publicDevice⟩ ⟨0x28, 0, 0x64⟩

/-- The advertisement is answered with a connection request, that with a confirmation. -/
example : ∃ d', Gets (fun _ _ => 0) Ll.cfgB (device eager) (.le (.legacyAdv invitation)) d' [.le request] :=
  leOut_gets (l := [.send request]) (by decide +kernel)
example : ((leOut inviting Ll.cfgA request).map fun l => l.filter fun | .send _ => true | _ => false) =
    some [.send (.connectComplete ⟨0xB, .publicDevice⟩ ⟨0xA, .publicDevice⟩ ⟨0x28, 0, 0x64⟩)] := by decide +kernel

/-- The advertiser answers a scan request. -/
example : leOut inviting Ll.cfgA (.scan ⟨0xB, .publicDevice⟩ ⟨0xA, .publicDevice⟩) =
    some [.send (.scanResponse ⟨0xA, .publicDevice⟩ 0xB [])] := by decide +kernel

/-- A name request is answered, and its answer is not; a delivery of each. -/
example : ∃ m, Delivers (fun _ _ => 0) (fun _ => Ll.cfgA) [1] ⟨fun _ => device inviting, [(0, .br 0xB 0xA .nameReq)]⟩ m ∧
    ∃ n, m.air = [(1, .br 0xA 0xB (.nameRsp n))] :=
  ⟨_, .mk _ [] [] 0 _ _ _ rfl (.br (device inviting) 0 0xB 0xA 0 .nameReq _ _ _ _ rfl), _, rfl⟩
example : ∃ m, Delivers (fun _ _ => 0) (fun _ => Ll.cfgA) [1] ⟨fun _ => device inviting, [(0, .br 0xB 0xA (.nameRsp []))]⟩ m ∧ m.air = [] :=
  ⟨_, .mk _ [] [] 0 _ _ _ rfl (.br (device inviting) 0 0xB 0xA 0 (.nameRsp []) _ _ _ _ rfl), rfl⟩

/-- A request for PHYs is answered by the peripheral, and its answer by the central. -/
example : ∃ d', Gets (fun _ _ => 0) Ll.cfgA (device inviting) (.link (.phyReq 7 7)) d' [.link (.phyRsp 7 7)] :=
  ⟨_, .link (device inviting) 0x200 (.phyReq 7 7) _ rfl⟩

/-- A request for connection parameters is refused by a controller whose host is not asked. -/
example : ∃ d', Gets (fun _ _ => 0) Ll.cfgA (device inviting) (.sub (.paramReq 6 8 0 100)) d' [.sub (.paramUpdate .unsupportedRemote 0 0 0)] :=
  ⟨_, .sub (device inviting) 0x200 (.paramReq 6 8 0 100) _ _ _ _ rfl⟩

end Verif.Storm
