import Verif.WireLink.Lemmas

/-!
# C130: the controller does what the octets of a command about an LE connection say

**C130.** When the host writes one of 15 commands about PHYs, encryption, features, version, event masks, subrates and connection
parameters as the core specification lays it out, the LE controller makes the call the command describes, with the same
parameters, and answers with the octets of Command Complete or Command Status that carry the opcode of the command and the status
of the call. So two commands that differ in a parameter the controller uses are never taken for each other, and a script of
commands has the same effect as the script of calls.

The octets are those of `Spec.lean`, written from the core specification; the handlers read them through the layouts of
hci_packets.pdl (`C130_layouts`). Parameters the controller does not use (`Unused`) are arbitrary.
-/
namespace Verif.WireLink

open Verif.Pdl Verif.Pdl.Hci
open Verif.Wire (le yes opcode le_length ofData)
open Verif.WireBr (ret_status ret_12 status_octets)

/-- The opcodes and layouts the handlers use. -/
def layouts : List (Nat × Fmt) := [
  (0x2031, bodyLeSetDefaultPhy),
  (0x2032, bodyLeSetPhy),
  (0x2019, bodyLeStartEncryption),
  (0x201a, bodyLeLongTermKeyRequestReply),
  (0x201b, bodyLeLongTermKeyRequestNegativeReply),
  (0x2016, bodyLeReadRemoteFeaturesPage0),
  (0x041d, bodyReadRemoteVersionInformation),
  (0x0c01, bodySetEventMask),
  (0x0c63, bodySetEventMaskPage2),
  (0x2001, bodyLeSetEventMask),
  (0x207e, bodyLeSubrateRequest),
  (0x2013, bodyLeConnectionUpdate),
  (0x2020, bodyLeRemoteConnectionParameterRequestReply),
  (0x2021, bodyLeRemoteConnectionParameterRequestNegativeReply),
  (0x207d, bodyLeSetDefaultSubrate)]

/-- The layouts are declared in hci_packets.pdl, each with its opcode. -/
theorem C130_layouts : ∀ e ∈ layouts, ∃ name, (⟨name, [⟨bodyCommand, [(0, e.1)]⟩, ⟨e.2, []⟩]⟩ : Packet) ∈ packetsCommand := by
  intro e he
  simp only [layouts, List.mem_cons, List.not_mem_nil, or_false] at he
  rcases he with rfl | rfl | rfl | rfl | rfl | rfl | rfl | rfl | rfl | rfl | rfl | rfl | rfl | rfl | rfl
  · exact ⟨"LeSetDefaultPhy", List.mem_of_getElem? (i := 206) rfl⟩
  · exact ⟨"LeSetPhy", List.mem_of_getElem? (i := 207) rfl⟩
  · exact ⟨"LeStartEncryption", List.mem_of_getElem? (i := 182) rfl⟩
  · exact ⟨"LeLongTermKeyRequestReply", List.mem_of_getElem? (i := 183) rfl⟩
  · exact ⟨"LeLongTermKeyRequestNegativeReply", List.mem_of_getElem? (i := 184) rfl⟩
  · exact ⟨"LeReadRemoteFeaturesPage0", List.mem_of_getElem? (i := 178) rfl⟩
  · exact ⟨"ReadRemoteVersionInformation", List.mem_of_getElem? (i := 24) rfl⟩
  · exact ⟨"SetEventMask", List.mem_of_getElem? (i := 53) rfl⟩
  · exact ⟨"SetEventMaskPage2", List.mem_of_getElem? (i := 124) rfl⟩
  · exact ⟨"LeSetEventMask", List.mem_of_getElem? (i := 157) rfl⟩
  · exact ⟨"LeSubrateRequest", List.mem_of_getElem? (i := 271) rfl⟩
  · exact ⟨"LeConnectionUpdate", List.mem_of_getElem? (i := 175) rfl⟩
  · exact ⟨"LeRemoteConnectionParameterRequestReply", List.mem_of_getElem? (i := 189) rfl⟩
  · exact ⟨"LeRemoteConnectionParameterRequestNegativeReply", List.mem_of_getElem? (i := 190) rfl⟩
  · exact ⟨"LeSetDefaultSubrate", List.mem_of_getElem? (i := 270) rfl⟩

/-- The controller makes the call of the command. -/
theorem C130_obey (u : Unused) (c : Call) (h : Sendable u c) : command (octetsOf u c) = some c := by
  rw [command, opcode_of]
  cases c with
  | link c => cases c with
    | setDefaultPhy a b t r => exact read_setDefaultPhy u a b t r h.1 h.2
    | setPhy j a b t r => exact read_setPhy u j a b t r h.1 h.2.1 h.2.2.1 h.2.2.2
    | enable j x e k => exact read_enable u j x e k h.1 h.2.1 h.2.2.1 h.2.2.2
    | reply j k => exact read_reply u j k h.1 h.2
    | negative j => exact read_negative u j h
    | readFeatures j => exact read_readFeatures u j h
    | readVersion j => exact read_readVersion u j h.1 h.2
    | setMask m => exact read_setMask u m h
    | setMask2 m => exact read_setMask2 u m h
    | setLeMask m => exact read_setLeMask u m h
    | acl => exact h.elim
  | sub j c => cases c with
    | subrateRequest x y l c t => exact read_subrateRequest u j x y l c t h.1 h.2.1 h.2.2.1 h.2.2.2.1 h.2.2.2.2.1 h.2.2.2.2.2
    | connectionUpdate x y l t => exact read_connectionUpdate u j x y l t h.1 h.2.1 h.2.2.1 h.2.2.2.1 h.2.2.2.2.1 h.2.2.2.2.2
    | paramReply x y l t m n => exact read_paramReply u j x y l t m n h.1 h.2.1 h.2.2.1 h.2.2.2.1 h.2.2.2.2.1 h.2.2.2.2.2.1 h.2.2.2.2.2.2
    | paramRefuse q => exact read_paramRefuse u j q h.1 h.2
  | subrate x y l c t => exact read_subrate u x y l c t h.1 h.2.1 h.2.2.1 h.2.2.2.1 h.2.2.2.2

/-- Two commands with the same octets are the same. -/
theorem C130_distinct (u v : Unused) (c d : Call) (hc : Sendable u c) (hd : Sendable v d) (h : octetsOf u c = octetsOf v d) :
    c = d := by
  have h1 := C130_obey u c hc
  rw [h, C130_obey v d hd] at h1
  exact (Option.some.inj h1).symm

/-- The answer carries the opcode of the command, the status of the call and, where the host answers, the handle. -/
theorem C130_answer (u : Unused) (s : Ctl) (c : Call) (d : Did) (h : Sendable u c) (hr : perform s c = some d) :
    handle s (octetsOf u c) = some (d, answerOf d.status c) := by
  simp only [handle, C130_obey u c h, hr, opcode_of, Option.map_some]
  refine congrArg (fun l => some (d, l)) ?_
  cases c with
  | link c => cases c with
    | setDefaultPhy a b t r => exact ret_status _ _
    | setPhy j a b t r => exact status_octets _ _
    | enable j x e k => exact status_octets _ _
    | reply j k => exact ret_12 _ _ _ h.1
    | negative j => exact ret_12 _ _ _ h
    | readFeatures j => exact status_octets _ _
    | readVersion j => exact status_octets _ _
    | setMask m => exact ret_status _ _
    | setMask2 m => exact ret_status _ _
    | setLeMask m => exact ret_status _ _
    | acl => exact h.elim
  | sub j c => cases c with
    | subrateRequest x y l c t => exact status_octets _ _
    | connectionUpdate x y l t => exact status_octets _ _
    | paramReply x y l t m n => exact ret_12 _ _ _ h.1
    | paramRefuse q => exact ret_12 _ _ _ h.1
  | subrate x y l c t => exact ret_status _ _

/-- A command about a connection that is not there changes nothing and is answered with 0x02, Unknown Connection Identifier. -/
theorem C130_unknown (u : Unused) (s : Ctl) (j : Nat) (c : Sub.Cmd) (h : Sendable u (.sub j c)) (hj : s.ends j = none) :
    handle s (octetsOf u (.sub j c)) = some (⟨0x02, s, [], [], [], []⟩, answerOf 0x02 (.sub j c)) :=
  C130_answer u s (.sub j c) ⟨0x02, s, [], [], [], []⟩ h (by simp only [perform, hj])

/-- A timing command of a connection that is there: the connection becomes what `Verif.Sub` says, the others stay, the packets and
events are those of this connection, and the answer has the error code of its status. -/
theorem C130_timing (u : Unused) (s : Ctl) (j : Nat) (c : Sub.Cmd) (e e' : Sub.End) (st : Sub.Status) (ps : List Sub.Pdu)
    (es : List Sub.Ev) (h : Sendable u (.sub j c)) (hj : s.ends j = some e) (hc : Sub.command e c = .ok st e' ps es) :
    ∃ d, handle s (octetsOf u (.sub j c)) = some (d, answerOf (ofReason st) (.sub j c)) ∧ d.ctl.ends j = some e' ∧
      (∀ k, k ≠ j → d.ctl.ends k = s.ends k) ∧ d.ctl.dev = s.dev ∧ d.ctl.accept = s.accept ∧
      d.pdus = ps.map (fun p => (j, p)) ∧ d.evs = es.map (fun x => (j, x)) ∧ d.out = [] ∧ d.ev = [] := by
  have hr : perform s (.sub j c) = some ⟨code st, { s with ends := fun k => if k = j then some e' else s.ends k }, [], [],
      ps.map (fun p => (j, p)), es.map (fun x => (j, x))⟩ := by simp only [perform, hj, hc]
  refine ⟨_, code_of st ▸ C130_answer u s _ _ h hr, if_pos rfl, fun k hk => if_neg hk, rfl, rfl, rfl, rfl, rfl, rfl⟩

/-- LE Set Default Subrate changes what connections made from now on accept, and nothing else. -/
theorem C130_subrate (u : Unused) (s : Ctl) (a b l c t : Nat) (st : Sub.Status) (x : Sub.Accept)
    (h : Sendable u (.subrate a b l c t)) (hc : Sub.setDefaultSubrate s.accept a b l c t = (st, x)) :
    ∃ d, handle s (octetsOf u (.subrate a b l c t)) = some (d, answerOf (ofReason st) (.subrate a b l c t)) ∧
      d.ctl.accept = x ∧ d.ctl.ends = s.ends ∧ d.ctl.dev = s.dev ∧ d.pdus = [] ∧ d.evs = [] ∧ d.out = [] ∧ d.ev = [] := by
  have hr : perform s (.subrate a b l c t) = some ⟨code st, { s with accept := x }, [], [], [], []⟩ := by simp only [perform, hc]
  exact ⟨_, code_of st ▸ C130_answer u s _ _ h hr, rfl, rfl, rfl, rfl, rfl, rfl, rfl⟩

/-- The other commands are those of `Verif.Link`, and leave the timing alone. -/
theorem C130_link (u : Unused) (s : Ctl) (c : Link.Cmd) (o : Link.Out) (h : Sendable u (.link c)) (hc : Link.command s.dev c = some o) :
    ∃ d, handle s (octetsOf u (.link c)) = some (d, answerOf o.status (.link c)) ∧ d.ctl.dev = o.dev ∧ d.out = o.out ∧ d.ev = o.ev ∧
      d.ctl.ends = s.ends ∧ d.ctl.accept = s.accept ∧ d.pdus = [] ∧ d.evs = [] := by
  have hr : perform s (.link c) = some ⟨o.status, { s with dev := o.dev }, o.out, o.ev, [], []⟩ := by simp only [perform, hc, Option.map_some]
  exact ⟨_, C130_answer u s _ _ h hr, rfl, rfl, rfl, rfl, rfl, rfl, rfl⟩

/-- The calls of a script, and the answers: the effects of the calls and nothing else. -/
def calls : List (Unused × Call) → Ctl → Option (Ctl × List (Did × List Nat))
  | [], s => some (s, [])
  | (_, c) :: l, s => match perform s c with
    | none => none
    | some d => (calls l d.ctl).map (fun r => (r.1, (d, answerOf d.status c) :: r.2))

/-- A script of commands is the script of the calls. -/
theorem C130_script : ∀ (l : List (Unused × Call)) (s s' : Ctl) (out : List (Did × List Nat)),
    (∀ e ∈ l, Sendable e.1 e.2) → calls l s = some (s', out) → serve (l.map (fun e => octetsOf e.1 e.2)) s = some (s', out)
  | [], s, s', out, _, h => h
  | (u, c) :: l, s, s', out, hs, h => by
    simp only [calls] at h
    split at h
    · cases h
    · rename_i d hr
      obtain ⟨⟨a, b⟩, h1, h2⟩ := Option.map_eq_some_iff.1 h
      have ih := C130_script l d.ctl a b (fun e he => hs e (List.mem_cons_of_mem _ he)) h1
      have ha := C130_answer u s c d (hs _ List.mem_cons_self) hr
      simp only [List.map_cons, serve, ha, ih]
      rw [h1] at h; exact h

/-- The surroundings of the examples. -/
def someUnused : Unused := ⟨0, 0x10, 0x20⟩

/-- LE Connection Update of connection 0x201 to 30 ms: the octets of the HCI command. -/
example : octetsOf someUnused (.sub 0x201 (.connectionUpdate 24 24 2 500)) =
    [0x13, 0x20, 14, 0x01, 0x02, 0x18, 0, 0x18, 0, 0x02, 0, 0xf4, 0x01, 0x10, 0, 0x20, 0] := by decide

/-- LE Set PHY: any PHY to transmit, LE 2M to receive. -/
example : command [0x32, 0x20, 7, 0x01, 0x02, 0x01, 0x00, 0x02, 0x00, 0x00] = some (.link (.setPhy 0x201 true false 0 2)) :=
  C130_obey someUnused (.link (.setPhy 0x201 true false 0 2)) ⟨by decide, by decide, by decide, by decide, by decide, by decide⟩

/-- The host refuses new connection parameters with 0x3b: the answer has the handle. -/
example : answerOf 0 (.sub 0x201 (.paramRefuse (.other 0x3b))) = [0x0e, 6, 1, 0x21, 0x20, 0x00, 0x01, 0x02] := by decide

/-- A parameter request of a connection that is there. -/
example (s : Ctl) (e : Sub.End) (h : s.ends 0x201 = some e) :
    (handle s (octetsOf someUnused (.sub 0x201 (.paramRefuse (.other 0x3b))))).map (·.2) =
      some [0x0e, 6, 1, 0x21, 0x20, 0x00, 0x01, 0x02] := by
  have hr : perform s (.sub 0x201 (.paramRefuse (.other 0x3b))) = some ⟨0, { s with ends := fun k => if k = 0x201 then some e else s.ends k },
      [], [], [(0x201, .paramUpdate (.other 0x3b) 0 0 0)], []⟩ := by
    simp only [perform, h]; rfl
  exact congrArg (Option.map (·.2)) (C130_answer someUnused s (.sub 0x201 (.paramRefuse (.other 0x3b))) _ ⟨by decide, by decide, by decide, by decide, by decide, by decide, by decide⟩ hr)

end Verif.WireLink
