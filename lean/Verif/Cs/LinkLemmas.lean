import Verif.Cs.Lemmas
/-! # Invariants of one end and of two connected controllers -/
namespace Verif.Cs

/-- Every configuration of an end has a good map. -/
def MapsOk (P : ChannelMap → Prop) (e : End) : Prop := ∀ c ∈ e.configs, P c.s.map

/-- The maps of a PDU that a receiver may store are good. -/
def Pdu.mapsOk (P : ChannelMap → Prop) : Pdu → Prop
  | .configReq _ action _ s => action = 1 → P s.map
  | .mapInd m => P m
  | _ => True

/-- What a command needs. -/
def Cmd.mapsOk (P : ChannelMap → Prop) : Cmd → Prop
  | .createConfig _ _ _ s _ => AlmostUsable s.map → P s.map
  | _ => True

theorem Res.ok_inj {st st' : Status} {e e' : End} {o o' : List Pdu} {v v' : List Ev}
    (h : Res.ok st e o v = .ok st' e' o' v') : st = st' ∧ e = e' ∧ o = o' ∧ v = v' := by
  cases h; exact ⟨rfl, rfl, rfl, rfl⟩

theorem mapsOk_put {P : ChannelMap → Prop} {e : End} {c : Config} (h : MapsOk P e) (hc : P c.s.map) :
    ∀ x ∈ put e.configs c, P x.s.map := by
  intro x hx
  rcases mem_put hx with rfl | hx
  · exact hc
  · exact h x hx

theorem mapsOk_erase {P : ChannelMap → Prop} {e : End} {id : Nat} (h : MapsOk P e) :
    ∀ x ∈ erase e.configs id, P x.s.map := fun x hx => h x (mem_erase hx)

theorem command_maps {P : ChannelMap → Prop} (hU : ∀ m, Usable m → P m) {e : End} {x : Cmd} {st : Status} {e' : End}
    {out : List Pdu} {ev : List Ev} (hx : x.mapsOk P) (he : MapsOk P e) (h : command e x = .ok st e' out ev) :
    MapsOk P e' ∧ ∀ d ∈ out, d.mapsOk P := by
  have same : MapsOk P e ∧ ∀ d ∈ ([] : List Pdu), d.mapsOk P := ⟨he, by simp⟩
  cases x with
  | encrypt => cases h; exact ⟨he, by simp⟩
  | readCaps =>
    simp only [command, readCaps, refuse] at h
    split at h
    · cases h; exact same
    · split at h
      · cases h; exact same
      · cases h; exact ⟨he, by simp [Pdu.mapsOk]⟩
  | setDefaults r a =>
    simp only [command, setDefaults, refuse] at h
    split at h
    · cases h; exact same
    split at h
    · cases h; exact same
    split at h
    · split at h
      · cases h; exact same
      · cases h; exact ⟨he, by simp⟩
    split at h
    · cases h; exact ⟨he, by simp⟩
    · cases h; exact same
  | readFae =>
    simp only [command, readFae, refuse] at h
    split at h
    · cases h; exact same
    split at h
    · cases h; exact same
    split at h
    · cases h; exact same
    · cases h; exact ⟨he, by simp [Pdu.mapsOk]⟩
  | writeFae t =>
    simp only [command, writeFae, refuse] at h
    split at h
    · cases h; exact same
    split at h
    · cases h; exact same
    split at h
    · cases h; exact same
    · cases h; exact ⟨he, by simp⟩
  | writeCaps c =>
    simp only [command, writeCaps, refuse] at h
    split at h
    · cases h; exact same
    split at h
    · cases h; exact same
    split at h
    · cases h; exact same
    · cases h; exact ⟨he, by simp⟩
  | createConfig id context role s r =>
    simp only [command] at h
    by_cases hc : createCheck e id context role s r = Status.success
    · have hm : P s.map := hx ((create_map _).1 (createCheck_success hc).2.2.1)
      unfold createConfig at h
      rw [if_neg (by simpa using hc)] at h
      split at h
      · cases h
        refine ⟨mapsOk_put he hm, ?_⟩
        intro d hd
        rw [List.mem_singleton.1 hd]
        exact fun _ => hm
      · cases h
        exact ⟨mapsOk_put he hm, by simp⟩
    · unfold createConfig refuse at h
      rw [if_pos hc] at h
      cases h; exact same
  | classify now m =>
    simp only [command, classify, refuse] at h
    split at h
    · cases h; exact same
    split at h
    · cases h; exact same
    · rename_i hm
      have hm : P m := hU m ((class_map m).1 (by simpa using hm))
      cases h
      refine ⟨?_, ?_⟩
      · intro c hc
        obtain ⟨c', _, rfl⟩ := List.mem_map.1 hc
        exact hm
      · intro d hd
        rw [List.mem_singleton.1 hd]; exact hm
  | removeConfig id =>
    simp only [command, removeConfig, refuse] at h
    split at h
    · cases h; exact same
    · cases h
      refine ⟨mapsOk_erase he, ?_⟩
      intro d hd
      rw [List.mem_singleton.1 hd]
      intro h; exact absurd h (by decide)
  | securityEnable =>
    simp only [command, securityEnable, refuse] at h
    split at h
    · cases h; exact same
    split at h
    · cases h; exact same
    split at h
    · cases h; exact same
    · cases h; exact ⟨he, by simp [Pdu.mapsOk]⟩
  | setParameters id p =>
    simp only [command, setParameters, refuse] at h
    split at h
    · cases h; exact same
    split at h
    · cases h; exact same
    split at h
    · cases h; exact same
    split at h
    · cases h; exact same
    split at h
    · cases h; exact same
    split at h
    · cases h; exact same
    split at h
    · cases h; exact same
    cases h
    refine ⟨?_, by simp⟩
    intro c hc
    obtain ⟨c', hc', rfl⟩ := List.mem_map.1 hc
    have := he c' hc'
    split <;> exact this
  | procedureEnable id b =>
    have key : ∀ b : Bool, ∀ c ∈ setEnabled e.configs id b, P c.s.map := by
      intro b c hc
      obtain ⟨c', hc', rfl⟩ := List.mem_map.1 hc
      have := he c' hc'
      split <;> exact this
    simp only [command, procedureEnable, refuse] at h
    split at h
    · cases h; exact same
    split at h
    · cases h; exact same
    split at h
    · cases h; exact same
    split at h
    · cases h; exact ⟨key true, by simp [Pdu.mapsOk]⟩
    · cases h; exact ⟨key false, by simp [Pdu.mapsOk]⟩

theorem reportStarted_ok {e : End} {id : Nat} {slot : Slot} {o : List Pdu} {st : Status} {e' : End} {out : List Pdu}
    {ev : List Ev} (h : reportStarted e id slot o = .ok st e' out ev) : e' = e ∧ out = o := by
  unfold reportStarted at h
  split at h
  · cases h; exact ⟨rfl, rfl⟩
  split at h
  · cases h; exact ⟨rfl, rfl⟩
  split at h
  · exact absurd h nofun
  · cases h; exact ⟨rfl, rfl⟩

theorem incoming_maps {P : ChannelMap → Prop} {e : End} {d : Pdu} {st : Status} {e' : End}
    {out : List Pdu} {ev : List Ev} (hd : d.mapsOk P) (he : MapsOk P e) (h : incoming e d = .ok st e' out ev) :
    MapsOk P e' ∧ ∀ d ∈ out, d.mapsOk P := by
  cases d with
  | capsReq c =>
    simp only [incoming, onCapsReq] at h
    split at h <;> cases h <;> exact ⟨he, by simp [Pdu.mapsOk]⟩
  | capsRsp s c =>
    simp only [incoming, onCapsRsp] at h
    split at h <;> cases h <;> exact ⟨he, by simp⟩
  | faeReq =>
    simp only [incoming, onFaeReq] at h
    split at h <;> cases h <;> exact ⟨he, by simp [Pdu.mapsOk]⟩
  | faeRsp s t =>
    simp only [incoming, onFaeRsp] at h
    split at h <;> cases h <;> exact ⟨he, by simp⟩
  | configReq id action role s =>
    simp only [incoming, onConfigReq] at h
    split at h
    · cases h; exact ⟨he, by simp [Pdu.mapsOk]⟩
    split at h
    · cases h; exact ⟨he, by simp [Pdu.mapsOk]⟩
    split at h
    · rename_i ha
      cases h
      exact ⟨mapsOk_put he (hd ha), by simp [Pdu.mapsOk]⟩
    split at h
    · cases h
      exact ⟨mapsOk_erase he, by simp [Pdu.mapsOk]⟩
    · cases h; exact ⟨he, by simp [Pdu.mapsOk]⟩
  | configRsp s id =>
    simp only [incoming, onConfigRsp] at h
    split at h
    · cases h; exact ⟨he, by simp⟩
    split at h
    · cases h; exact ⟨mapsOk_erase he, by simp⟩
    · cases h; exact ⟨he, by simp⟩
  | secReq =>
    simp only [incoming, onSecReq] at h
    split at h
    · cases h; exact ⟨he, by simp [Pdu.mapsOk]⟩
    split at h <;> cases h <;> exact ⟨he, by simp [Pdu.mapsOk]⟩
  | secRsp s =>
    simp only [incoming, onSecRsp] at h
    split at h <;> cases h <;> exact ⟨he, by simp⟩
  | csReq id slot =>
    simp only [incoming, onCsReq] at h
    split at h
    · cases h; exact ⟨he, by simp [Pdu.mapsOk]⟩
    split at h
    · cases h; exact ⟨he, by simp [Pdu.mapsOk]⟩
    split at h
    · cases h; exact ⟨he, by simp [Pdu.mapsOk]⟩
    split at h
    · cases h; exact ⟨he, by simp [Pdu.mapsOk]⟩
    split at h
    · cases h; exact ⟨he, by simp [Pdu.mapsOk]⟩
    · obtain ⟨rfl, rfl⟩ := reportStarted_ok h
      exact ⟨he, by simp [Pdu.mapsOk]⟩
  | csRsp s id slot =>
    simp only [incoming, onCsRsp] at h
    split at h
    · cases h; exact ⟨he, by simp⟩
    split at h
    · obtain ⟨rfl, rfl⟩ := reportStarted_ok h
      exact ⟨he, by simp [Pdu.mapsOk]⟩
    · cases h; exact ⟨he, by simp⟩
  | csInd s id slot =>
    simp only [incoming, onCsInd] at h
    split at h
    · cases h; exact ⟨he, by simp⟩
    split at h
    · obtain ⟨rfl, rfl⟩ := reportStarted_ok h
      exact ⟨he, by simp⟩
    · cases h; exact ⟨he, by simp⟩
  | mapInd m =>
    simp only [incoming, onMapInd] at h
    cases h
    refine ⟨?_, by simp⟩
    intro c hc
    obtain ⟨c', hc', rfl⟩ := List.mem_map.1 hc
    have := he c' hc'
    split
    · exact hd
    · exact this
  | termReq id count err => cases h; exact ⟨he, by simp [Pdu.mapsOk]⟩
  | termRsp id count err => cases h; exact ⟨he, by simp⟩

/-- The invariant of a link. -/
structure Link.MapsOk (P : ChannelMap → Prop) (l : Link) : Prop where
  c : Cs.MapsOk P l.c
  p : Cs.MapsOk P l.p
  toC : ∀ d ∈ l.toC, d.mapsOk P
  toP : ∀ d ∈ l.toP, d.mapsOk P

/-- What the command of a step needs. -/
def Act.mapsOk (P : ChannelMap → Prop) : Act → Prop
  | .cmdC c => c.mapsOk P
  | .cmdP c => c.mapsOk P
  | _ => True

theorem step_maps {P : ChannelMap → Prop} (hU : ∀ m, Usable m → P m) {l l' : Link} {a : Act} (ha : a.mapsOk P)
    (hl : l.MapsOk P) (h : step l a = some l') : l'.MapsOk P := by
  have app : ∀ {x y : List Pdu}, (∀ d ∈ x, d.mapsOk P) → (∀ d ∈ y, d.mapsOk P) → ∀ d ∈ x ++ y, d.mapsOk P := by
    intro x y hx hy d hd
    rcases List.mem_append.1 hd with h | h
    · exact hx d h
    · exact hy d h
  cases a with
  | cmdC x =>
    simp only [step] at h
    split at h
    · rename_i st e out ev hc
      cases h
      obtain ⟨h1, h2⟩ := command_maps hU ha hl.c hc
      exact ⟨h1, hl.p, hl.toC, app hl.toP h2⟩
    · exact absurd h nofun
  | cmdP x =>
    simp only [step] at h
    split at h
    · rename_i st e out ev hc
      cases h
      obtain ⟨h1, h2⟩ := command_maps hU ha hl.p hc
      exact ⟨hl.c, h1, app hl.toC h2, hl.toP⟩
    · exact absurd h nofun
  | deliverC =>
    simp only [step] at h
    split at h
    · cases h; exact hl
    rename_i d rest hq
    have hd := hl.toC
    rw [hq] at hd
    split at h
    · rename_i st e out ev hc
      cases h
      obtain ⟨h1, h2⟩ := incoming_maps (hd d (by simp)) hl.c hc
      exact ⟨h1, hl.p, fun x hx => hd x (by simp [hx]), app hl.toP h2⟩
    · exact absurd h nofun
  | deliverP =>
    simp only [step] at h
    split at h
    · cases h; exact hl
    rename_i d rest hq
    have hd := hl.toP
    rw [hq] at hd
    split at h
    · rename_i st e out ev hc
      cases h
      obtain ⟨h1, h2⟩ := incoming_maps (hd d (by simp)) hl.p hc
      exact ⟨hl.c, h1, app hl.toC h2, fun x hx => hd x (by simp [hx])⟩
    · exact absurd h nofun

theorem run_maps {P : ChannelMap → Prop} (hU : ∀ m, Usable m → P m) {as : List Act} {l l' : Link}
    (ha : ∀ a ∈ as, a.mapsOk P) (hl : l.MapsOk P) (h : run l as = some l') : l'.MapsOk P := by
  induction as generalizing l with
  | nil => cases h; exact hl
  | cons a as ih =>
    simp only [run] at h
    split at h
    · exact absurd h nofun
    · rename_i l1 h1
      exact ih (fun x hx => ha x (by simp [hx])) (step_maps hU (ha a (by simp)) hl h1) h

/-! ## Aborts -/

theorem command_ok (e : End) (x : Cmd) : ∃ st e' out ev, command e x = .ok st e' out ev := by
  cases x <;> simp only [command, readCaps, setDefaults, readFae, writeFae, writeCaps, createConfig, classify,
    removeConfig, securityEnable, setParameters, procedureEnable, refuse] <;>
    (repeat' split) <;> exact ⟨_, _, _, _, rfl⟩

theorem reportStarted_abort (e : End) (id : Nat) (slot : Slot) (o : List Pdu) :
    reportStarted e id slot o = .abort ↔ e.mask.proc = true ∧ ∃ c, find e.configs id = some c ∧ c.proc = none := by
  unfold reportStarted
  by_cases hm : e.mask.proc = false
  · rw [if_pos hm]; simp [hm]
  rw [if_neg hm]
  have hm : e.mask.proc = true := by simpa using hm
  cases hf : find e.configs id with
  | none => simp
  | some c =>
    cases hp : c.proc with
    | none => simp [hm, hp]
    | some p => simp [hp]

end Verif.Cs
