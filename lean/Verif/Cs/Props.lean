import Verif.Cs.LinkLemmas
/-!
# C40, C41, C60 and C61: channel sounding

C40: a channel classification or configuration is accepted only if it enables at least 15 channels and
none of the channels 0, 1, 23, 24, 25, 77, 78 and 79.

C41: no sequence of channel sounding PDUs from a connected peer makes the controller abort, and a
configuration removed or terminated by one side is removed or terminated on the other.

C60: a configuration created for both sides is held by both sides with opposite roles, or by neither, and
both hosts are told the same.

C61: a procedure is reported as started only if the peer has the configuration, channel sounding security
and a frequency error table, and agreed. -/
namespace Verif.Cs

/-! ## Two devices with the capabilities of the default properties -/

/-- controller_properties.h:52-83. -/
def defaultCaps : Caps := ⟨3, 1, 3, 1, 1, 1, 1, 1, 0⟩

/-- Two devices that support channel sounding, with no event masked. -/
def exampleLink : Link :=
  .fresh (.fresh true true ⟨true, true, true, true, true⟩ defaultCaps none)
    (.fresh false true ⟨true, true, true, true, true⟩ defaultCaps none)

/-- Channels 2 to 22. -/
def exampleMap : ChannelMap := #v[0xFC, 0xFF, 0x7F, 0, 0, 0, 0, 0, 0, 0]

/-- Mode 1, no sub mode. -/
def exampleSettings : Settings := ⟨exampleMap, 1, 1, 0xFF, 0, 0, 0, 1, 1, 0, 1, 0, 2⟩

/-- Procedure parameters. -/
def exampleProc : Proc := ⟨100, 1, 10, 1, 1250, 5000, 0, 1, 0, 1, 0, 0⟩

/-- The two devices learn each other's capabilities and frequency errors, enable their roles and security. -/
def prepare : List Act :=
  [.cmdC .encrypt, .cmdP .encrypt, .cmdC .readCaps, .deliverP, .deliverC, .cmdC (.setDefaults 3 1),
   .cmdP (.setDefaults 3 1), .cmdC .readFae, .deliverP, .deliverC, .cmdP .readFae, .deliverC, .deliverP,
   .cmdC .securityEnable, .deliverP, .deliverC]

/-- The central creates a configuration for both sides. -/
def create (id : Nat) (s : Settings) : List Act := [.cmdC (.createConfig id 1 0 s 0), .deliverP, .deliverC]

/-- The state of the central after a run, if nothing aborted. -/
def centralAfter (as : List Act) : Option End := (run exampleLink as).map (·.c)

/-- The state of the peripheral after a run, if nothing aborted. -/
def peripheralAfter (as : List Act) : Option End := (run exampleLink as).map (·.p)

/-- Nothing is on its way after a run. -/
def quietAfter (as : List Act) : Bool := match run exampleLink as with
  | some l => l.toC.isEmpty && l.toP.isEmpty
  | none => false

/-! ## C40 -/

/-- A channel classification is accepted if and only if a second has passed since the last one and its map is
usable. Then the peer is told, and all configurations have the new map; otherwise nothing changes. -/
theorem C40_classification (e : End) (now : Nat) (m : ChannelMap) :
    (((∀ t, e.classified = some t → t + 1000000000 ≤ now) ∧ Usable m) ∧
      ∃ e', command e (.classify now m) = .ok Status.success e' [.mapInd m] [] ∧ e'.classified = some now ∧
        e'.configs = e.configs.map (fun c => { c with s := { c.s with map := m } })) ∨
    (¬((∀ t, e.classified = some t → t + 1000000000 ≤ now) ∧ Usable m) ∧
      ∃ st, st ≠ Status.success ∧ command e (.classify now m) = .ok st e [] []) := by
  have ht : tooEarly e.classified now = false ↔ ∀ t, e.classified = some t → t + 1000000000 ≤ now := by
    unfold tooEarly
    cases e.classified with
    | none => simp
    | some t => simp
  by_cases h : (∀ t, e.classified = some t → t + 1000000000 ≤ now) ∧ Usable m
  · refine .inl ⟨h, ?_⟩
    simp only [command, classify]
    rw [if_neg (by rw [ht.2 h.1]; decide), if_neg (by rw [(class_map m).2 h.2]; decide)]
    exact ⟨_, rfl, rfl, rfl⟩
  · refine .inr ⟨h, ?_⟩
    simp only [command, classify]
    by_cases h1 : tooEarly e.classified now = true
    · rw [if_pos h1]; exact ⟨_, by decide, rfl⟩
    · rw [if_neg h1]
      have h1 := ht.1 (by simpa using h1)
      have h2 : mapOk classMask m = false := by
        cases hm : mapOk classMask m with
        | false => rfl
        | true => exact absurd ⟨h1, (class_map m).1 hm⟩ h
      rw [if_pos h2]; exact ⟨_, by decide, rfl⟩

example : Usable exampleMap ∧ ¬Usable #v[0xFC, 0xFF, 0xFF, 0, 0, 0, 0, 0, 0, 0] ∧
    ¬Usable #v[0xFC, 0xFF, 0, 0, 0, 0, 0, 0, 0, 0] := by decide +kernel

example : ((centralAfter (prepare ++ [.cmdC (.classify 5 exampleMap)])).map (·.classified)) = some (some 5) := by
  decide +kernel

/-- A configuration that is accepted enables at least 15 channels and none of the channels 0, 1, 23, 24, 25,
77 and 78. Missing: channel 79. -/
theorem C40_create_partial (e : End) (id context role : Nat) (s : Settings) (r : Nat) (e' : End) (out : List Pdu)
    (ev : List Ev) (h : command e (.createConfig id context role s r) = .ok Status.success e' out ev) :
    15 ≤ channels s.map ∧ ∀ ch ∈ [0, 1, 23, 24, 25, 77, 78], on s.map ch = false := by
  have h1 := (create_map _).1 (createCheck_success (createConfig_success h).1).2.2.1
  refine ⟨h1.1, fun ch hc => h1.2 ch ?_ ?_⟩
  · simp only [List.mem_cons, List.not_mem_nil, or_false] at hc
    rcases hc with rfl | rfl | rfl | rfl | rfl | rfl | rfl <;> decide
  · rintro rfl; exact absurd hc (by decide)

/-- A configuration that is refused changes nothing and sends nothing. -/
theorem C40_create_refused (e : End) (id context role : Nat) (s : Settings) (r : Nat) :
    ∃ st e' out ev, command e (.createConfig id context role s r) = .ok st e' out ev ∧
      (st ≠ Status.success → e' = e ∧ out = [] ∧ ev = []) := by
  simp only [command, createConfig, refuse]
  split
  · exact ⟨_, _, _, _, rfl, fun _ => ⟨rfl, rfl, rfl⟩⟩
  · split
    · exact ⟨_, _, _, _, rfl, fun h => absurd rfl h⟩
    · exact ⟨_, _, _, _, rfl, fun h => absurd rfl h⟩

example : ((centralAfter (prepare ++ create 0 exampleSettings)).map (fun e => (e.config 0).isSome)) = some true := by
  decide +kernel

/-- The mask of LeCsCreateConfig ends with channel 78: a configuration with channel 79 is accepted. -/
theorem C40_channel_79_violated :
    on #v[0xFC, 0xFF, 0x7F, 0, 0, 0, 0, 0, 0, 0x80] 79 = true ∧
    (centralAfter (prepare ++ create 0 { exampleSettings with map := #v[0xFC, 0xFF, 0x7F, 0, 0, 0, 0, 0, 0, 0x80] })).map
      (fun e => (e.config 0).map (·.s.map)) = some (some #v[0xFC, 0xFF, 0x7F, 0, 0, 0, 0, 0, 0, 0x80]) := by
  decide +kernel

/-- The map of a configuration a peer asks for is not looked at: if some map is accepted, every map is, and the
configuration has it. -/
theorem C40_peer_configuration_violated (e : End) (id role : Nat) (s : Settings) (e' : End) (ev : List Ev)
    (h : incoming e (.configReq id 1 role s) = .ok 0 e' [.configRsp Status.success id] ev) (m : ChannelMap) :
    ∃ e' ev c, incoming e (.configReq id 1 role { s with map := m }) = .ok 0 e' [.configRsp Status.success id] ev ∧
      e'.config id = some c ∧ c.s.map = m := by
  simp only [incoming, onConfigReq] at h ⊢
  split at h
  · rename_i h1
    injection h with _ _ h _
    injection h with h _
    injection h with h _
    exact absurd h (by decide)
  rename_i h1
  split at h
  · injection h with _ _ h _
    injection h with h _
    injection h with h _
    exact absurd h (by decide)
  rename_i h2
  rw [if_neg h1, if_neg (by simpa [configReqOk] using h2), if_pos trivial]
  exact ⟨_, _, _, rfl, find_put_self _ _, rfl⟩

example : (peripheralAfter prepare).map (fun e => match incoming e (.configReq 0 1 0 exampleSettings) with
    | .ok _ _ out _ => out
    | .abort => []) = some [.configRsp Status.success 0] := by decide +kernel

/-- The map of a channel map indication is not looked at: every configuration that is enabled takes it. -/
theorem C40_peer_map_violated (e : End) (m : ChannelMap) (c : Config) (hc : c ∈ e.configs) (hon : c.enabled = true) :
    ∃ e', incoming e (.mapInd m) = .ok 0 e' [] [] ∧ { c with s := { c.s with map := m } } ∈ e'.configs := by
  refine ⟨_, rfl, ?_⟩
  refine List.mem_map.2 ⟨c, hc, ?_⟩
  simp [hon, Config.withMap]

/-- Between two unmodified controllers all this does no harm beyond channel 79: whatever the hosts do, and on
any schedule, every configuration has at least 15 channels and none of the forbidden ones, if no host creates a
configuration with channel 79. -/
theorem C40_two_controllers_partial (c p : End) (hc : c.configs = []) (hp : p.configs = []) (as : List Act) (l : Link)
    (h79 : ∀ a ∈ as, a.no79) (h : run (.fresh c p) as = some l) :
    (∀ x ∈ l.c.configs, Usable x.s.map) ∧ (∀ x ∈ l.p.configs, Usable x.s.map) := by
  have key := run_maps (P := Usable) (fun _ h => h) (as := as) (l := .fresh c p) (l' := l) ?_ ?_ h
  · exact ⟨key.c, key.p⟩
  · intro a ha
    have := h79 a ha
    cases a with
    | cmdC x => cases x <;> first | exact trivial | exact fun hA => hA.usable this
    | cmdP x => cases x <;> first | exact trivial | exact fun hA => hA.usable this
    | deliverC => exact trivial
    | deliverP => exact trivial
  · refine ⟨?_, ?_, by simp [Link.fresh], by simp [Link.fresh]⟩
    · intro x hx; rw [show (Link.fresh c p).c.configs = c.configs from rfl, hc] at hx; simp at hx
    · intro x hx; rw [show (Link.fresh c p).p.configs = p.configs from rfl, hp] at hx; simp at hx

/-- The same for all commands: there are at least 15 channels, and of the forbidden ones at most channel 79. -/
theorem C40_two_controllers (c p : End) (hc : c.configs = []) (hp : p.configs = []) (as : List Act) (l : Link)
    (h : run (.fresh c p) as = some l) :
    (∀ x ∈ l.c.configs, AlmostUsable x.s.map) ∧ (∀ x ∈ l.p.configs, AlmostUsable x.s.map) := by
  have key := run_maps (P := AlmostUsable) (fun _ h => h.almost) (as := as) (l := .fresh c p) (l' := l) ?_ ?_ h
  · exact ⟨key.c, key.p⟩
  · intro a ha
    cases a with
    | cmdC x => cases x <;> first | exact trivial | exact fun hA => hA
    | cmdP x => cases x <;> first | exact trivial | exact fun hA => hA
    | deliverC => exact trivial
    | deliverP => exact trivial
  · refine ⟨?_, ?_, by simp [Link.fresh], by simp [Link.fresh]⟩
    · intro x hx; rw [show (Link.fresh c p).c.configs = c.configs from rfl, hc] at hx; simp at hx
    · intro x hx; rw [show (Link.fresh c p).p.configs = p.configs from rfl, hp] at hx; simp at hx

example : (run exampleLink (prepare ++ create 0 exampleSettings)).map (fun l => (l.c.configs.length, l.p.configs.length)) =
    some (1, 1) := by decide +kernel

/-! ## C41: aborts -/

/-- No command aborts. -/
theorem C41_commands (e : End) (x : Cmd) : command e x ≠ .abort := by
  obtain ⟨_, _, _, _, h⟩ := command_ok e x
  rw [h]; exact nofun

/-- A PDU reports the start of the procedure of a configuration to the host: a response to the central, an
indication to the peripheral, or a request to the central that has a key and a frequency error table. -/
def startsAt (e : End) (id : Nat) : Pdu → Prop
  | .csReq i _ => i = id ∧ e.central = true ∧ e.iv ≠ 0 ∧ e.fae ≠ none
  | .csRsp _ i _ => i = id ∧ e.central = true
  | .csInd _ i _ => i = id ∧ e.central = false
  | _ => False

/-- A PDU makes the controller abort exactly if it reports the start of a configuration whose procedure
parameters were never set, the host supports channel sounding and did not mask the event. -/
theorem C41_abort_iff (e : End) (d : Pdu) :
    incoming e d = .abort ↔
      e.hostSupport = true ∧ e.mask.proc = true ∧ ∃ id c, startsAt e id d ∧ e.config id = some c ∧ c.proc = none := by
  have no : ∀ {st e' out ev}, incoming e d = .ok st e' out ev → (∀ id, ¬startsAt e id d) →
      (incoming e d = .abort ↔
      e.hostSupport = true ∧ e.mask.proc = true ∧ ∃ id c, startsAt e id d ∧ e.config id = some c ∧ c.proc = none) := by
    intro st e' out ev h hno
    rw [h]
    constructor
    · exact nofun
    · rintro ⟨_, _, id, _, h, _⟩; exact absurd h (hno id)
  cases d with
  | csReq i slot =>
    simp only [incoming, onCsReq]
    by_cases hs : e.hostSupport = false
    · rw [if_pos hs]; simp [hs]
    rw [if_neg hs]
    have hs : e.hostSupport = true := by simpa using hs
    cases hf : find e.configs i with
    | none =>
      simp only
      constructor
      · exact nofun
      · rintro ⟨_, _, id, c, ⟨rfl, _⟩, hc, _⟩
        exact absurd (hf.symm.trans hc) nofun
    | some c =>
      simp only
      by_cases h1 : e.iv = 0
      · rw [if_pos h1]; simp [startsAt, h1]
      rw [if_neg h1]
      by_cases h2 : e.fae = none
      · rw [if_pos h2]; simp [startsAt, h2]
      rw [if_neg h2]
      by_cases h3 : e.central = false
      · rw [if_pos h3]; simp [startsAt, h3]
      rw [if_neg h3, reportStarted_abort]
      constructor
      · rintro ⟨hm, c, hc, hp⟩
        exact ⟨hs, hm, i, c, ⟨rfl, by simpa using h3, h1, h2⟩, hc, hp⟩
      · rintro ⟨_, hm, id, c, ⟨rfl, _⟩, hc, hp⟩
        exact ⟨hm, c, hc, hp⟩
  | csRsp st i slot =>
    simp only [incoming, onCsRsp]
    by_cases hs : e.hostSupport = false
    · rw [if_pos hs]; simp [hs]
    rw [if_neg hs]
    have hs : e.hostSupport = true := by simpa using hs
    by_cases h3 : e.central = true
    · rw [if_pos h3, reportStarted_abort]
      constructor
      · rintro ⟨hm, c, hc, hp⟩
        exact ⟨hs, hm, i, c, ⟨rfl, h3⟩, hc, hp⟩
      · rintro ⟨_, hm, id, c, ⟨rfl, _⟩, hc, hp⟩
        exact ⟨hm, c, hc, hp⟩
    · rw [if_neg h3]; simp [startsAt, h3]
  | csInd st i slot =>
    simp only [incoming, onCsInd]
    by_cases hs : e.hostSupport = false
    · rw [if_pos hs]; simp [hs]
    rw [if_neg hs]
    have hs : e.hostSupport = true := by simpa using hs
    by_cases h3 : e.central = false
    · rw [if_pos h3, reportStarted_abort]
      constructor
      · rintro ⟨hm, c, hc, hp⟩
        exact ⟨hs, hm, i, c, ⟨rfl, h3⟩, hc, hp⟩
      · rintro ⟨_, hm, id, c, ⟨rfl, _⟩, hc, hp⟩
        exact ⟨hm, c, hc, hp⟩
    · rw [if_neg h3]; simp [startsAt, h3]
  | capsReq c =>
    have : ∃ st' e' out ev, incoming e (.capsReq c) = .ok st' e' out ev := by
      simp only [incoming, onCapsReq]; (repeat' split) <;> exact ⟨_, _, _, _, rfl⟩
    obtain ⟨_, _, _, _, h⟩ := this
    exact no h (fun _ => id)
  | capsRsp st c =>
    have : ∃ st' e' out ev, incoming e (.capsRsp st c) = .ok st' e' out ev := by
      simp only [incoming, onCapsRsp]; (repeat' split) <;> exact ⟨_, _, _, _, rfl⟩
    obtain ⟨_, _, _, _, h⟩ := this
    exact no h (fun _ => id)
  | faeReq =>
    have : ∃ st' e' out ev, incoming e (.faeReq) = .ok st' e' out ev := by
      simp only [incoming, onFaeReq]; (repeat' split) <;> exact ⟨_, _, _, _, rfl⟩
    obtain ⟨_, _, _, _, h⟩ := this
    exact no h (fun _ => id)
  | faeRsp st c =>
    have : ∃ st' e' out ev, incoming e (.faeRsp st c) = .ok st' e' out ev := by
      simp only [incoming, onFaeRsp]; (repeat' split) <;> exact ⟨_, _, _, _, rfl⟩
    obtain ⟨_, _, _, _, h⟩ := this
    exact no h (fun _ => id)
  | configReq i action role s =>
    have : ∃ st e' out ev, incoming e (.configReq i action role s) = .ok st e' out ev := by
      simp only [incoming, onConfigReq]; (repeat' split) <;> exact ⟨_, _, _, _, rfl⟩
    obtain ⟨_, _, _, _, h⟩ := this
    exact no h (fun _ => id)
  | configRsp st i =>
    have : ∃ st' e' out ev, incoming e (.configRsp st i) = .ok st' e' out ev := by
      simp only [incoming, onConfigRsp]; (repeat' split) <;> exact ⟨_, _, _, _, rfl⟩
    obtain ⟨_, _, _, _, h⟩ := this
    exact no h (fun _ => id)
  | secReq =>
    have : ∃ st' e' out ev, incoming e .secReq = .ok st' e' out ev := by
      simp only [incoming, onSecReq]; (repeat' split) <;> exact ⟨_, _, _, _, rfl⟩
    obtain ⟨_, _, _, _, h⟩ := this
    exact no h (fun _ => id)
  | secRsp st =>
    have : ∃ st' e' out ev, incoming e (.secRsp st) = .ok st' e' out ev := by
      simp only [incoming, onSecRsp]; (repeat' split) <;> exact ⟨_, _, _, _, rfl⟩
    obtain ⟨_, _, _, _, h⟩ := this
    exact no h (fun _ => id)
  | mapInd m => exact no rfl (fun _ => id)
  | termReq i n err => exact no rfl (fun _ => id)
  | termRsp i n err => exact no rfl (fun _ => id)

end Verif.Cs
