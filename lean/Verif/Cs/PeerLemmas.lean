import Verif.Cs.LinkLemmas
/-! # What a PDU leaves as it is -/
namespace Verif.Cs

/-- A PDU that creates a configuration. -/
def Pdu.creates : Pdu → Bool
  | .configReq _ action _ _ => action == 1
  | _ => false

theorem incoming_fixed {e : End} {d : Pdu} {st : Status} {e' : End} {out : List Pdu} {ev : List Ev}
    (h : incoming e d = .ok st e' out ev) :
    e'.hostSupport = e.hostSupport ∧ e'.mask = e.mask ∧ e'.central = e.central ∧ e'.caps = e.caps := by
  cases d with
  | capsReq c => simp only [incoming, onCapsReq] at h; split at h <;> cases h <;> exact ⟨rfl, rfl, rfl, rfl⟩
  | capsRsp s c => simp only [incoming, onCapsRsp] at h; split at h <;> cases h <;> exact ⟨rfl, rfl, rfl, rfl⟩
  | faeReq => simp only [incoming, onFaeReq] at h; split at h <;> cases h <;> exact ⟨rfl, rfl, rfl, rfl⟩
  | faeRsp s t => simp only [incoming, onFaeRsp] at h; split at h <;> cases h <;> exact ⟨rfl, rfl, rfl, rfl⟩
  | configReq id action role s =>
    simp only [incoming, onConfigReq] at h
    (repeat' split at h) <;> cases h <;> exact ⟨rfl, rfl, rfl, rfl⟩
  | configRsp s id =>
    simp only [incoming, onConfigRsp] at h
    (repeat' split at h) <;> cases h <;> exact ⟨rfl, rfl, rfl, rfl⟩
  | secReq =>
    simp only [incoming, onSecReq] at h
    (repeat' split at h) <;> cases h <;> exact ⟨rfl, rfl, rfl, rfl⟩
  | secRsp s => simp only [incoming, onSecRsp] at h; split at h <;> cases h <;> exact ⟨rfl, rfl, rfl, rfl⟩
  | csReq id slot =>
    simp only [incoming, onCsReq] at h
    (repeat' split at h) <;> first
      | (cases h; exact ⟨rfl, rfl, rfl, rfl⟩)
      | (obtain ⟨rfl, -⟩ := reportStarted_ok h; exact ⟨rfl, rfl, rfl, rfl⟩)
  | csRsp s id slot =>
    simp only [incoming, onCsRsp] at h
    (repeat' split at h) <;> first
      | (cases h; exact ⟨rfl, rfl, rfl, rfl⟩)
      | (obtain ⟨rfl, -⟩ := reportStarted_ok h; exact ⟨rfl, rfl, rfl, rfl⟩)
  | csInd s id slot =>
    simp only [incoming, onCsInd] at h
    (repeat' split at h) <;> first
      | (cases h; exact ⟨rfl, rfl, rfl, rfl⟩)
      | (obtain ⟨rfl, -⟩ := reportStarted_ok h; exact ⟨rfl, rfl, rfl, rfl⟩)
  | mapInd m => cases h; exact ⟨rfl, rfl, rfl, rfl⟩
  | termReq id count err => cases h; exact ⟨rfl, rfl, rfl, rfl⟩
  | termRsp id count err => cases h; exact ⟨rfl, rfl, rfl, rfl⟩

/-- Without a creation every configuration keeps its procedure parameters and its flag, or goes. -/
theorem incoming_configs {e : End} {d : Pdu} {st : Status} {e' : End} {out : List Pdu} {ev : List Ev}
    (hd : d.creates = false) (h : incoming e d = .ok st e' out ev) :
    ∀ c ∈ e'.configs, ∃ c0 ∈ e.configs, c.id = c0.id ∧ c.proc = c0.proc ∧ c.enabled = c0.enabled ∧ c.role = c0.role := by
  have same : ∀ c ∈ e.configs,
      ∃ c0 ∈ e.configs, c.id = c0.id ∧ c.proc = c0.proc ∧ c.enabled = c0.enabled ∧ c.role = c0.role :=
    fun c hc => ⟨c, hc, rfl, rfl, rfl, rfl⟩
  have gone : ∀ id, ∀ c ∈ erase e.configs id,
      ∃ c0 ∈ e.configs, c.id = c0.id ∧ c.proc = c0.proc ∧ c.enabled = c0.enabled ∧ c.role = c0.role :=
    fun id c hc => ⟨c, mem_erase hc, rfl, rfl, rfl, rfl⟩
  cases d with
  | capsReq c => simp only [incoming, onCapsReq] at h; split at h <;> cases h <;> exact same
  | capsRsp s c => simp only [incoming, onCapsRsp] at h; split at h <;> cases h <;> exact same
  | faeReq => simp only [incoming, onFaeReq] at h; split at h <;> cases h <;> exact same
  | faeRsp s t => simp only [incoming, onFaeRsp] at h; split at h <;> cases h <;> exact same
  | configReq id action role s =>
    have ha : action ≠ 1 := by simpa [Pdu.creates] using hd
    simp only [incoming, onConfigReq, if_neg ha] at h
    split at h
    · cases h; exact same
    split at h
    · cases h; exact same
    split at h
    · cases h; exact gone id
    · cases h; exact same
  | configRsp s id =>
    simp only [incoming, onConfigRsp] at h
    split at h
    · cases h; exact same
    split at h
    · cases h; exact gone id
    · cases h; exact same
  | secReq =>
    simp only [incoming, onSecReq] at h
    (repeat' split at h) <;> cases h <;> exact same
  | secRsp s => simp only [incoming, onSecRsp] at h; split at h <;> cases h <;> exact same
  | csReq id slot =>
    simp only [incoming, onCsReq] at h
    (repeat' split at h) <;> first
      | (cases h; exact same)
      | (obtain ⟨rfl, -⟩ := reportStarted_ok h; exact same)
  | csRsp s id slot =>
    simp only [incoming, onCsRsp] at h
    (repeat' split at h) <;> first
      | (cases h; exact same)
      | (obtain ⟨rfl, -⟩ := reportStarted_ok h; exact same)
  | csInd s id slot =>
    simp only [incoming, onCsInd] at h
    (repeat' split at h) <;> first
      | (cases h; exact same)
      | (obtain ⟨rfl, -⟩ := reportStarted_ok h; exact same)
  | mapInd m =>
    cases h
    intro c hc
    obtain ⟨c', hc', rfl⟩ := List.mem_map.1 hc
    refine ⟨c', hc', ?_⟩
    split <;> exact ⟨rfl, rfl, rfl, rfl⟩
  | termReq id count err => cases h; exact same
  | termRsp id count err => cases h; exact same

theorem bool_iff {a b : Bool} (h : a = true ↔ b = true) : a = b := by
  cases a <;> cases b <;> simp_all

/-- The answer to a request to create. -/
theorem onConfigReq_create (e : End) (id role : Nat) (s : Settings) (hh : e.hostSupport = true) :
    (configReqOk e.caps role s = false ∧ onConfigReq e id 1 role s = .ok 0 e [.configRsp Status.unsupportedLlParameter id] []) ∨
    (configReqOk e.caps role s = true ∧ onConfigReq e id 1 role s =
      .ok 0 { e with configs := put e.configs ⟨id, opposite role, s, false, none⟩ } [.configRsp Status.success id]
        (tell e.mask.config (.config Status.success id true (opposite role) (reqSettings true s) s.jump))) := by
  unfold onConfigReq
  rw [if_neg (by simp [hh])]
  by_cases h : configReqOk e.caps role s = false
  · rw [if_pos h]; exact .inl ⟨h, rfl⟩
  · rw [if_neg h, if_pos rfl]; exact .inr ⟨by simpa using h, rfl⟩

end Verif.Cs
