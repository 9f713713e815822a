import Verif.Iso.Lemmas
/-!
# What the steps leave unchanged, and the locking of CIGs
-/

namespace Verif.Iso

open Verif.Le

/-- Commands that do not touch the CIGs and the configurations. -/
def Cmd.leavesCigs : Cmd → Bool
  | .setCig .. | .setCigTest .. | .removeCig .. | .createCis .. => false
  | _ => true

theorem dequeue_cigs {s s' : State} {outs : List Out} (h : dequeue s = .ok (s', outs)) : s'.cigs = s.cigs := by
  unfold dequeue at h
  split at h
  · cases h; rfl
  · split at h
    · split at h
      · cases h
      · split at h
        · cases h
        · obtain ⟨rfl, -⟩ := send_ok h; rfl
    · cases h

theorem runCmd_cigs {env : Env} {s s' : State} {c : Cmd} {outs : List Out} (hc : c.leavesCigs = true)
    (h : runCmd env s c = .ok (s', outs)) : s'.cigs = s.cigs := by
  cases c <;> first | (cases hc; done) | skip
  all_goals
    simp only [runCmd, acceptCis, rejectCis, setupPath, removePath, disconnect, createBig, terminateBig] at h
    repeat' split at h
    all_goals first
      | (cases h; done)
      | (obtain ⟨rfl, -⟩ := answer_ok h; rfl)
      | (cases h; rfl)

theorem runPdu_cigs {s s' : State} {acl : Nat} {p : Pdu} {outs : List Out}
    (h : runPdu s acl p = .ok (s', outs)) : s'.cigs = s.cigs := by
  cases p with
  | cisReq r =>
    simp only [runPdu, cisReq] at h
    split at h
    · cases h
    · cases h; rfl
  | cisRsp =>
    simp only [runPdu, cisRsp] at h
    repeat' split at h
    all_goals first
      | (cases h; done)
      | (cases h; rfl)
      | skip
    rename_i hd
    obtain ⟨rfl, -⟩ := send_ok h
    rw [dequeue_cigs hd]; rfl
  | cisInd a b =>
    simp only [runPdu, cisInd] at h
    repeat' split at h
    all_goals first
      | (cases h; done)
      | (cases h; rfl)
      | (obtain ⟨rfl, -⟩ := send_ok h; rfl)
  | rejectExtInd op e =>
    simp only [runPdu, rejectExtInd] at h
    repeat' split at h
    all_goals first
      | (cases h; done)
      | (cases h; rfl)
      | skip
    rename_i hd
    cases h
    rw [dequeue_cigs hd]; rfl
  | terminateInd a b e =>
    simp only [runPdu, terminateInd] at h
    repeat' split at h
    all_goals first
      | (cases h; done)
      | (cases h; rfl)
  | other => cases h
  | malformed => cases h

theorem checkCig_configurable {env : Env} {s : State} {k a b : Nat} {cs : List NewCis}
    (h : checkCig env s k a b cs = none) : ((mapFind s.cigs k).getD {}).configurable = true := by
  unfold checkCig at h
  split at h
  · cases h
  · rename_i hc
    cases hx : mapFind s.cigs k with
    | none => rfl
    | some g => simpa [hx] using hc

theorem checkCreate_ne {s : State} {rs : List CisRequest} {a b : Nat} {e : ErrorCode}
    (h : checkCreate s rs a b = .error e) : e ≠ success := by
  unfold checkCreate at h
  repeat' split at h
  all_goals (cases h) <;> decide

theorem checkCreates_ne {s : State} {rs : List CisRequest} {cs : List (Nat × Nat)} {e : ErrorCode}
    (h : checkCreates s rs cs = .error e) : e ≠ success := by
  induction cs generalizing rs with
  | nil => cases h
  | cons p cs ih =>
    simp only [checkCreates] at h
    split at h
    · rename_i he; cases h; exact checkCreate_ne he
    · exact ih h

theorem checkCreate_ok {s : State} {rs : List CisRequest} {a b : Nat} {r : CisRequest}
    (h : checkCreate s rs a b = .ok r) : ∃ c ∈ s.cises, c.handle = a ∧ c.state = .configuration ∧
      r = { handle := a, acl := b, cigId := c.cigId, cisId := c.cisId } ∧ mapFind s.acls b = some .central ∧
      ∀ x ∈ rs, x.handle ≠ a := by
  unfold checkCreate at h
  split at h
  · cases h
  · cases h
  · rename_i hacl
    split at h
    · cases h
    · rename_i c hf
      obtain ⟨hm, hh⟩ := findCis_some hf
      split at h
      · cases h
      · rename_i hst
        split at h
        · cases h
        · rename_i hany
          cases h
          exact ⟨c, hm, hh, Decidable.byContradiction hst, rfl, hacl, by simpa using hany⟩

/-- The requests made from a Create CIS command: one for every element, in order, for configured CISes. -/
theorem checkCreates_ok {s : State} {rs rs' : List CisRequest} {cs : List (Nat × Nat)}
    (h : checkCreates s rs cs = .ok rs') :
    ∃ new, rs' = rs ++ new ∧ new.map (fun r => (r.handle, r.acl)) = cs ∧
      (∀ r ∈ new, mapFind s.acls r.acl = some .central ∧
        ∃ c ∈ s.cises, c.handle = r.handle ∧ c.state = .configuration ∧ c.cigId = r.cigId ∧ c.cisId = r.cisId) ∧
      ((rs.map (·.handle)).Nodup → (rs'.map (·.handle)).Nodup) := by
  induction cs generalizing rs with
  | nil => cases h; exact ⟨[], by simp, rfl, (fun r hr => by cases hr), fun h => h⟩
  | cons p cs ih =>
    obtain ⟨a, b⟩ := p
    simp only [checkCreates] at h
    split at h
    · cases h
    · rename_i r hr
      obtain ⟨c, hc, h1, h2, rfl, h3, h4⟩ := checkCreate_ok hr
      obtain ⟨new, rfl, h5, h6, h7⟩ := ih h
      refine ⟨{ handle := a, acl := b, cigId := c.cigId, cisId := c.cisId } :: new, by simp, by simp [h5], ?_, ?_⟩
      · intro r hr
        rcases List.mem_cons.1 hr with rfl | hr
        · exact ⟨h3, c, hc, h1, h2, rfl, rfl⟩
        · exact h6 r hr
      · intro hn
        apply h7
        rw [List.map_append, List.nodup_append]
        refine ⟨hn, by simp, ?_⟩
        intro x hx y hy
        simp only [List.map_cons, List.map_nil, List.mem_singleton] at hy
        obtain ⟨z, hz, rfl⟩ := List.mem_map.1 hx
        subst hy
        exact h4 z hz

theorem checkCreates_mem {s : State} {rs : List CisRequest} {cs : List (Nat × Nat)}
    (h : checkCreates s [] cs = .ok rs) (p : Nat × Nat) (hp : p ∈ cs) :
    ∃ r ∈ rs, ∃ c ∈ s.cises, c.handle = p.1 ∧ c.cigId = r.cigId := by
  obtain ⟨new, rfl, h1, h2, -⟩ := checkCreates_ok h
  rw [← h1] at hp
  obtain ⟨r, hr, rfl⟩ := List.mem_map.1 hp
  obtain ⟨-, c, hc, h3, -, h4, -⟩ := h2 r hr
  exact ⟨r, by simpa using hr, c, hc, h3, h4⟩

/-- Locking changes nothing in a group but the flag, and never sets it. -/
theorem lockCigs_keep {rs : List CisRequest} {cigs cigs' : List (Nat × CigConfig)} (h : lockCigs rs cigs = some cigs')
    (k : Nat) (g : CigConfig) (hg : mapFind cigs k = some g) :
    mapFind cigs' k = some { g with configurable := g.configurable && !rs.any (fun r => r.cigId = k) } := by
  induction rs generalizing cigs g with
  | nil => cases h; simpa using hg
  | cons r rs ih =>
    simp only [lockCigs] at h
    split at h
    · cases h
    · rename_i g' hg'
      by_cases hk : r.cigId = k
      · subst hk
        rw [hg] at hg'; cases hg'
        have := ih h _ (by rw [mapFind_mapSet, if_pos rfl])
        rw [this]
        simp
      · have := ih h g (by rw [mapFind_mapSet, if_neg hk]; exact hg)
        rw [this]
        simp [hk]

theorem lockCigs_locked {rs : List CisRequest} {cigs cigs' : List (Nat × CigConfig)} (h : lockCigs rs cigs = some cigs')
    (r : CisRequest) (hr : r ∈ rs) : ∃ g, mapFind cigs' r.cigId = some g ∧ g.configurable = false := by
  have hsome : ∃ g, mapFind cigs r.cigId = some g := by
    induction rs generalizing cigs with
    | nil => cases hr
    | cons x rs ih =>
      simp only [lockCigs] at h
      split at h
      · cases h
      · rename_i g' hg'
        rcases List.mem_cons.1 hr with rfl | hr
        · exact ⟨g', hg'⟩
        · obtain ⟨g, hg⟩ := ih h hr
          rw [mapFind_mapSet] at hg
          split at hg
          · rename_i e; exact ⟨g', e ▸ hg'⟩
          · exact ⟨g, hg⟩
  obtain ⟨g, hg⟩ := hsome
  refine ⟨_, lockCigs_keep h _ g hg, ?_⟩
  have : rs.any (fun x => x.cigId = r.cigId) = true := List.any_eq_true.2 ⟨r, hr, by simp⟩
  simp [this]

theorem createCis_cigs {env : Env} {s s' : State} {cs : List (Nat × Nat)} {outs : List Out}
    (h : createCis env s cs = .ok (s', outs)) (k : Nat) (g : CigConfig) (hg : mapFind s.cigs k = some g) :
    ∃ b, (b = true → g.configurable = true) ∧ mapFind s'.cigs k = some { g with configurable := b } := by
  unfold createCis at h
  repeat' split at h
  all_goals first
    | (cases h; done)
    | (obtain ⟨rfl, -⟩ := answer_ok h; exact ⟨_, fun h => h, hg⟩)
    | skip
  rename_i hl _ _ _ hd
  cases h
  have := lockCigs_keep hl k g hg
  rw [dequeue_cigs hd]
  exact ⟨_, by simp_all, this⟩

/-- A step that is not the removal of the group keeps a locked group. -/
theorem step_locked {s s' : State} {env : Env} {op : Op} {k : Nat} {g : CigConfig} {outs : List Out}
    (hg : mapFind s.cigs k = some g) (hl : g.configurable = false) (hop : op ≠ .hci (.removeCig k))
    (h : step env s op = .ok (s', outs)) : mapFind s'.cigs k = some g := by
  have hset : ∀ {j : Nat} {x : CigConfig} {cs : List NewCis} {s2 : State} {hs : List Nat} {a b : Nat}
      {ds : List NewCis},
      checkCig env s j a b ds = none → configureCises j cs { s with cigs := mapSet s.cigs j x } = .ok (s2, hs) →
      mapFind s2.cigs k = some g := by
    intro j x cs s2 hs a b ds hc hcfg
    rw [configureCises_cigs hcfg]
    show mapFind (mapSet s.cigs j x) k = some g
    rw [mapFind_mapSet]
    split
    · rename_i e
      subst e
      have := checkCig_configurable hc
      rw [hg] at this
      simp [hl] at this
    · exact hg
  cases op with
  | addLink acl role =>
    simp only [step, addLink] at h
    split at h
    · cases h
    · cases h; exact hg
  | removeLink acl reason =>
    simp only [step, removeLink] at h
    split at h
    · cases h
    · cases h; exact hg
  | hci c =>
    by_cases hc : c.leavesCigs = true
    · rw [runCmd_cigs hc h]; exact hg
    · cases c <;> first | (exact absurd rfl hc) | skip
      case setCig =>
        simp only [step, runCmd, setCig] at h
        repeat' split at h
        all_goals first
          | (cases h; done)
          | (obtain ⟨rfl, -⟩ := answer_ok h; exact hg)
          | (obtain ⟨rfl, -⟩ := answer_ok h; exact hset (by assumption) (by assumption))
      case setCigTest =>
        simp only [step, runCmd, setCigTest] at h
        repeat' split at h
        all_goals first
          | (cases h; done)
          | (obtain ⟨rfl, -⟩ := answer_ok h; exact hg)
          | (obtain ⟨rfl, -⟩ := answer_ok h; exact hset (by assumption) (by assumption))
      case removeCig j =>
        have hj : j ≠ k := fun e => hop (by rw [e])
        simp only [step, runCmd, removeCig] at h
        repeat' split at h
        all_goals obtain ⟨rfl, -⟩ := answer_ok h
        · exact hg
        · exact hg
        · show mapFind (mapErase _ _) _ = _
          rw [mapFind_mapErase, if_neg hj]; exact hg
      case createCis cs =>
        obtain ⟨b, hb, hf⟩ := createCis_cigs h k g hg
        rw [hf]
        cases b with
        | true => rw [hb rfl] at hl; cases hl
        | false => rw [← hl]
  | llcp acl p => rw [runPdu_cigs h]; exact hg
  | rehash order =>
    simp only [step] at h
    cases h
    split <;> exact hg

end Verif.Iso
