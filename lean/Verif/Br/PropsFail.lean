import Verif.Br.PlainLemmas
/-!
# C65: nothing hosts or peers do makes a BR/EDR controller fail

Property: whatever commands the host sends and whatever packets arrive, the controller neither aborts nor hangs
nor reads outside its data. -/
namespace Verif.Br
open Verif.Sco (ConnParams LinkParams)

/-- A phone. -/
def exampleInfo : Info := ⟨0x5a020c, [0x70], [], 0, 0x875bffdbfe8fffff, 0, 12, 0x1234, 0xe0⟩

/-- A device with address 0xA. -/
def exampleA : Ctl := Ctl.fresh 0xA exampleInfo 4

/-- A connection with device 0xB is made. -/
def connectB : List (Nat × Act) :=
  [(0, .cmd (.create 0xB true)), (1000000000, .tick), (1100000000, .packet 0xB 0xA 0 (.pageRsp false))]

/-- Parameters of a voice connection. -/
def voice : ConnParams := ⟨8000, 8000, 0xffff, 0x60, 0xff, 0x3f⟩

/-- Its link parameters. -/
def voiceLink : LinkParams := ⟨6, 0, 30, 30, 2, false⟩

/-- A step after a history. -/
def after (as : List (Nat × Act)) (now : Nat) (x : Act) : Option Res := (run exampleA as).map (fun r => step r.1 now x)

/-- In every history in which nobody uses the empty address, the controller aborts, hangs or reads outside its
features exactly in the cases of `Aborts`, `Hangs` and `Strays`. -/
theorem C65_failures (addr : Nat) (i : Info) (n : Nat) (as : List (Nat × Act)) (hx : ∀ x ∈ as, Named x.2) (s : Ctl)
    (l : List Seen) (h : run (Ctl.fresh addr i n) as = some (s, l)) (now : Nat) (x : Act) (hn : Named x) :
    (step s now x = .abort ↔ Aborts s now x) ∧ (step s now x = .hang ↔ Hangs s x) ∧ (step s now x = .wild ↔ Strays s x) := by
  have hi := run_inv (fresh_inv addr i n) as hx s l h
  have hf := fits hi now x hn
  have h1 : Aborts s now x → ¬Hangs s x ∧ ¬Strays s x := by
    intro h
    cases x with
    | cmd c => cases c <;> first | exact absurd h id | exact ⟨id, id⟩
    | tick => exact absurd h id
    | check k => exact ⟨id, id⟩
    | packet src dst rssi p => cases p <;> first | exact absurd h id | exact ⟨id, id⟩
  have h2 : Hangs s x → ¬Strays s x := by
    intro h
    cases x with
    | cmd c => cases c <;> first | exact absurd h id | exact id
    | packet src dst rssi p => cases p <;> first | exact absurd h id | exact id
    | _ => exact id
  revert hf
  cases step s now x with
  | abort =>
    intro hf
    exact ⟨⟨fun _ => hf, fun _ => rfl⟩, ⟨nofun, fun h => absurd h (h1 hf).1⟩, ⟨nofun, fun h => absurd h (h1 hf).2⟩⟩
  | hang =>
    intro hf
    exact ⟨⟨nofun, fun h => absurd hf (h1 h).1⟩, ⟨fun _ => hf, fun _ => rfl⟩, ⟨nofun, fun h => absurd h (h2 hf)⟩⟩
  | wild =>
    intro hf
    exact ⟨⟨nofun, fun h => absurd hf (h1 h).2⟩, ⟨nofun, fun h => absurd hf (h2 h)⟩, ⟨fun _ => hf, fun _ => rfl⟩⟩
  | ok st s' out ev =>
    rintro ⟨_, ha, hh, hs⟩
    exact ⟨⟨nofun, fun h => absurd h ha⟩, ⟨nofun, fun h => absurd h hh⟩, ⟨nofun, fun h => absurd h hs⟩⟩

/-- A history with a connection. -/
example : (run exampleA connectB).map (fun r => peers r.1) = some [0xB] := by
  decide +kernel

/-- With at most seven devices around, no synchronous connections, no broadcast flag in the host's data, well-formed
LMP packets and features pages up to 2, the controller never fails. Missing: the other cases, which fail as the
theorems below show. -/
theorem C65_no_failure_partial (addr : Nat) (i : Info) (n : Nat) (devices : List Nat) (hd : devices.length ≤ 7)
    (as : List (Nat × Act)) (hx : ∀ x ∈ as, Plain devices x.2) : run (Ctl.fresh addr i n) as ≠ none := by
  have go : ∀ (as : List (Nat × Act)) (s : Ctl), Inv s → Known devices s → (∀ x ∈ as, Plain devices x.2) → run s as ≠ none := by
    intro as
    induction as with
    | nil =>
      intro s _ _ _
      exact nofun
    | cons x as ih =>
      intro s hi hk hx
      obtain ⟨now, a⟩ := x
      obtain ⟨st, s', out, ev, h1, h2, h3⟩ := plain_ok hi hk hd now a (hx _ List.mem_cons_self)
      simp only [run, h1]
      have := ih s' h2 h3 (fun x hx' => hx x (List.mem_cons_of_mem _ hx'))
      revert this
      cases run s' as with
      | none => exact fun h => absurd rfl h
      | some r => exact fun _ => nofun
  exact go as _ (fresh_inv addr i n) ⟨nofun, nofun, nofun, rfl⟩ hx

/-- A history of this kind, in which a connection is made, used and ended by the peer. -/
example : ∀ x ∈ connectB ++ [(1200000000, Act.cmd (.acl 0 2 0 [1])), (1300000000, .packet 0xB 0xA 0 (.lmp true)),
    (1400000000, .packet 0xB 0xA 0 (.disconnect 0x13))], Plain [0xB] x.2 := by
  simp [connectB, Plain]

/-- Two voice connections with a device, then Disconnect. -/
theorem C65_two_syncs_violated :
    after (connectB ++ [(2000000000, .cmd (.setupSync 0 voice false)), (2000000001, .packet 0xB 0xA 0 (.scoRsp 0 voiceLink)),
      (2000000002, .cmd (.setupSync 0 voice false))]) 2000000003 (.cmd (.disconnect 0 0x13)) = some .abort := by
  decide +kernel

/-- A peer that ends the connection while there is a voice connection, or while its request waits. -/
theorem C65_peer_disconnects_violated :
    after (connectB ++ [(2000000000, .cmd (.setupSync 0 voice false)), (2000000001, .packet 0xB 0xA 0 (.scoRsp 0 voiceLink))])
      2000000002 (.packet 0xB 0xA 0 (.disconnect 0x13)) = some .abort ∧
    after (connectB ++ [(2000000000, .packet 0xB 0xA 0 (.scoReq voice 0))]) 2000000001 (.packet 0xB 0xA 0 (.disconnect 0x13)) = some .abort := by
  decide +kernel

/-- Connections with seven devices. -/
def seven : List (Nat × Act) := (List.range 7).flatMap (fun k =>
  [(0, .cmd (.create (k + 0xB) true)), (1, .packet (k + 0xB) 0xA 0 (.pageRsp false))])

/-- An eighth connection, although there are handles for 256. -/
theorem C65_eighth_violated :
    after (seven ++ [(2, .cmd (.create 0x100 true))]) 3 (.packet 0x100 0xA 0 (.pageRsp false)) = some .abort ∧
    after (seven ++ [(2, .cmd (.writeScanEnable true true)), (3, .packet 0x100 0xA 0 (.page 0 true))]) 4 (.cmd (.accept 0x100 true)) = some .abort := by
  decide +kernel

/-- A second answer to the request of a voice connection whose data the controller makes up. -/
theorem C65_second_answer_violated :
    after (connectB ++ [(2000000000, .cmd (.setupSync 0 voice true)), (2000000001, .packet 0xB 0xA 0 (.scoRsp 0 voiceLink))])
      2000000002 (.packet 0xB 0xA 0 (.scoRsp 0 voiceLink)) = some .abort := by
  decide +kernel

/-- Any controller aborts on a malformed LMP packet, connected or not, and on the broadcast flag. -/
theorem C65_malformed_violated (s : Ctl) (now src rssi h pb : Nat) (d : List UInt8) :
    step s now (.packet src s.addr rssi (.lmp false)) = .abort ∧ step s now (.cmd (.acl h pb 1 d)) = .abort := by
  constructor
  · simp [step, incoming, dispatch]
  · simp [step, command, sendAcl]

/-- Any controller reads outside its features when its host or a peer, connected or not, asks for page 3. -/
theorem C65_features_violated (s : Ctl) (now src rssi : Nat) :
    step s now (.cmd (.extLocal 3)) = .wild ∧ step s now (.packet src s.addr rssi (.extReq 3)) = .wild := by
  constructor
  · simp [step, command, lmpFeatures]
  · simp [step, incoming, dispatch, onExtReq, lmpFeatures]

end Verif.Br
