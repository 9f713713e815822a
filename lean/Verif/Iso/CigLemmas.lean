import Verif.Iso.Lemmas
import Verif.Iso.SpecCig
/-!
# Configuration of connected isochronous groups: helper lemmas
-/

namespace Verif.Iso

open Verif.Le

theorem newCis_cases {cises cises' : List Cis} {cigId cisId : Nat} {h : Nat}
    (hn : newCis cises cigId cisId .central = .ok (cises', h)) :
    (cises' = cises ∧ ∃ x ∈ cises, x.handle = h ∧ x.isCentral cigId cisId) ∨
    (cises' = cises ++ [{ handle := h, cigId := cigId, cisId := cisId, role := .central }] ∧
      (∀ x ∈ cises, x.handle ≠ h) ∧ ∀ x ∈ cises, ¬ x.isCentral cigId cisId) := by
  unfold newCis at hn
  split at hn
  · rename_i c hf
    cases hn
    have := List.find?_some hf
    simp only [decide_eq_true_eq] at this
    exact Or.inl ⟨rfl, c, List.mem_of_find?_eq_some hf, rfl, this.2.2, this.1, this.2.1⟩
  · rename_i hnone
    split at hn
    · cases hn
    · rename_i hh
      cases hn
      refine Or.inr ⟨rfl, (newCisHandle_some hh).2, ?_⟩
      intro x hx hc
      rw [List.find?_eq_none] at hnone
      exact hnone x hx (by simpa using ⟨hc.2.1, hc.2.2, hc.1⟩)

theorem lastConfig_cons (c : NewCis) (cs : List NewCis) (k : Nat) :
    lastConfig (c :: cs) k = (lastConfig cs k).or (if c.cisId = k then some c.config else none) := by
  unfold lastConfig
  rw [List.reverse_cons, List.find?_append]
  cases cs.reverse.find? (fun c => c.cisId = k) with
  | some x => simp
  | none =>
    by_cases h : c.cisId = k <;> simp [List.find?, h]

theorem configureCises_spec {cigId : Nat} {cs : List NewCis} {s s' : State} {hs : List Nat} {cig : CigConfig}
    (hi : Inv s) (hg : mapFind s.cigs cigId = some cig) (h : configureCises cigId cs s = .ok (s', hs)) :
    Configured s s' cigId cig cs hs := by
  induction cs generalizing s hs with
  | nil =>
    cases h
    refine ⟨.nil, fun _ h => h, .nil, fun _ h => Or.inl h, hg, ?_, fun _ _ => rfl, fun _ _ => rfl, rfl, rfl, rfl, rfl⟩
    intro k; rfl
  | cons c cs ih =>
    simp only [configureCises] at h
    split at h
    · cases h
    · rename_i cises h₀ hn
      split at h
      · cases h
      · rename_i s₂ hs₂ hc
        cases h
        have hi' := newCis_inv (cfg := c.config) hi (by rw [hg]; rfl) hn
        have r := ih hi' hg hc
        obtain ⟨x, hx, hxh, hxg, hxc, hxr⟩ := newCis_handle hn
        have hsub : ∀ y ∈ s.cises, y ∈ cises := by
          intro y hy
          rcases newCis_cases hn with ⟨e, -⟩ | ⟨e, -⟩
          · rw [e]; exact hy
          · rw [e]; exact List.mem_append_left _ hy
        refine ⟨?_, ?_, ?_, ?_, r.group, ?_, r.others, ?_, r.acls, r.bigs, r.bises, r.requests⟩
        · exact .cons ⟨x, r.kept x hx, hxh, hxr, hxg, hxc⟩ r.handles
        · exact fun y hy => r.kept y (hsub y hy)
        · refine .cons ?_ ?_
          · intro y hy hyc
            have hyx := hi'.ids.unique y.ident (List.mem_map_of_mem (hsub y hy)) x.ident (List.mem_map_of_mem hx) hyc.1
              (by simp only [Cis.ident]; rw [hyc.1, hyc.2.1, hyc.2.2, hxg, hxc, hxr])
            simp only [Cis.ident, Prod.mk.injEq] at hyx
            rw [hyx.1, hxh]
          · exact r.keptHandles.imp (fun c' h' hk y hy hyc => hk y (hsub y hy) hyc)
        · intro y hy
          rcases r.added y hy with hy | ⟨h1, h2, h3, c', hc', h4⟩
          · rcases newCis_cases hn with ⟨e, -⟩ | ⟨e, hf, -⟩
            · exact Or.inl (by rw [e] at hy; exact hy)
            · have hy : y ∈ cises := hy
              rw [e] at hy
              rcases List.mem_append.1 hy with hy | hy
              · exact Or.inl hy
              · rw [List.mem_singleton] at hy
                subst hy
                exact Or.inr ⟨hf, rfl, rfl, c, List.mem_cons_self, rfl, rfl, rfl⟩
          · exact Or.inr ⟨fun z hz => h1 z (hsub z hz), h2, h3, c', List.mem_cons_of_mem _ hc', h4⟩
        · intro k
          rw [r.configs k]
          show (lastConfig cs k).or (mapFind (mapSet s.cisConfigs (cigId, c.cisId) c.config) (cigId, k)) = _
          rw [mapFind_mapSet, lastConfig_cons]
          cases lastConfig cs k with
          | some a => rfl
          | none =>
            simp only [Option.none_or]
            by_cases hk : c.cisId = k
            · simp [hk]
            · simp [hk]
        · intro k hk
          rw [r.otherConfigs k hk]
          show mapFind (mapSet s.cisConfigs (cigId, c.cisId) c.config) k = _
          rw [mapFind_mapSet, if_neg]
          rintro rfl
          exact hk rfl

/-- Configuring a CIG starts with its parameters. -/
theorem Configured.ofSet {s s' : State} {cigId : Nat} {cig : CigConfig} {cs : List NewCis} {hs : List Nat}
    (h : Configured { s with cigs := mapSet s.cigs cigId cig } s' cigId cig cs hs) :
    Configured s s' cigId cig cs hs := by
  refine ⟨h.handles, h.kept, h.keptHandles, h.added, h.group, h.configs, ?_, h.otherConfigs, h.acls, h.bigs, h.bises,
    h.requests⟩
  intro k hk
  rw [h.others k hk]
  show mapFind (mapSet _ _ _) _ = _
  rw [mapFind_mapSet, if_neg (fun e => hk e.symm)]

theorem configured_of {s s' : State} {k : Nat} {g : CigConfig} {cs : List NewCis} {hs : List Nat} (hi : Inv s)
    (h : configureCises k cs { s with cigs := mapSet s.cigs k g } = .ok (s', hs)) : Configured s s' k g cs hs :=
  (configureCises_spec (hi.setCig k g) (by
    show mapFind (mapSet s.cigs k g) k = some g
    rw [mapFind_mapSet, if_pos rfl]) h).ofSet

theorem checkCis_ne {env : Env} {s : State} {k : Nat} {c : NewCis} {e : ErrorCode}
    (h : checkCis env s k c = some e) : e ≠ success := by
  simp only [checkCis] at h
  repeat' split at h
  all_goals (try cases h) <;> decide

theorem checkCig_ne {env : Env} {s : State} {k a b : Nat} {cs : List NewCis} {e : ErrorCode}
    (h : checkCig env s k a b cs = some e) : e ≠ success := by
  unfold checkCig at h
  split at h
  · cases h; decide
  · split at h
    · rename_i he
      cases h
      obtain ⟨c, -, hc⟩ := List.exists_of_findSome?_eq_some he
      exact checkCis_ne hc
    · split at h
      · cases h; decide
      · cases h

/-! ### The interval -/

theorem divCeil_spec (a n : Nat) : divCeil a 1250 ≤ n ↔ a ≤ 1250 * n := by
  unfold divCeil
  rw [Nat.div_le_iff_le_mul_add_pred (by decide)]
  omega

theorem lcmU32_ok {a b n : Nat} (h : lcmU32 a b = .ok n) : n = Nat.lcm a b ∧ Nat.lcm a b < u32 := by
  unfold lcmU32 at h
  split at h
  · cases h; exact ⟨rfl, by assumption⟩
  · cases h

/-- What the interval of an unframed CIG has to be a multiple of. -/
def sduLcm (sduC sduP : Nat) : Nat := if sduC = 0 then sduP else if sduP = 0 then sduC else Nat.lcm sduC sduP

theorem sduLcm_dvd {sduC sduP n : Nat} (h : ¬ (sduC = 0 ∧ sduP = 0)) :
    sduLcm sduC sduP ∣ n ↔ (sduC ≠ 0 → sduC ∣ n) ∧ (sduP ≠ 0 → sduP ∣ n) := by
  unfold sduLcm
  split
  · rename_i h0
    have hp : sduP ≠ 0 := fun e => h ⟨h0, e⟩
    exact ⟨fun hd => ⟨fun hc => absurd h0 hc, fun _ => hd⟩, fun hd => hd.2 hp⟩
  · rename_i h0
    split
    · rename_i h1
      exact ⟨fun hd => ⟨fun _ => hd, fun hc => absurd h1 hc⟩, fun hd => hd.1 h0⟩
    · rename_i h1
      rw [Nat.lcm_dvd_iff]
      exact ⟨fun hd => ⟨fun _ => hd.1, fun _ => hd.2⟩, fun hd => ⟨hd.1 h0, hd.2 h1⟩⟩

theorem sduLcm_pos {sduC sduP : Nat} (h : ¬ (sduC = 0 ∧ sduP = 0)) : 0 < sduLcm sduC sduP := by
  unfold sduLcm
  split
  · rename_i h0; exact Nat.pos_of_ne_zero (fun e => h ⟨h0, e⟩)
  · rename_i h0
    split
    · exact Nat.pos_of_ne_zero h0
    · rename_i h1; exact Nat.lcm_pos (Nat.pos_of_ne_zero h0) (Nat.pos_of_ne_zero h1)

theorem commonSduInterval_ok {sduC sduP x : Nat} (h : commonSduInterval sduC sduP = .ok x) :
    ¬ (sduC = 0 ∧ sduP = 0) ∧ x = sduLcm sduC sduP := by
  unfold commonSduInterval at h
  unfold sduLcm
  split at h
  · cases h
  · rename_i h0
    refine ⟨h0, ?_⟩
    split at h
    · rename_i h1; cases h; rw [if_pos h1]
    · rename_i h1
      rw [if_neg h1]
      split at h
      · rename_i h2; cases h; rw [if_pos h2]
      · rename_i h2
        rw [if_neg h2]; exact (lcmU32_ok h).1

theorem commonSduInterval_total {sduC sduP : Nat} (h0 : ¬ (sduC = 0 ∧ sduP = 0)) (h : sduLcm sduC sduP < u32) :
    commonSduInterval sduC sduP = .ok (sduLcm sduC sduP) := by
  unfold commonSduInterval
  rw [if_neg h0]
  unfold sduLcm at h ⊢
  by_cases h1 : sduC = 0
  · rw [if_pos h1, if_pos h1]
  · rw [if_neg h1] at h ⊢
    rw [if_neg h1]
    by_cases h2 : sduP = 0
    · rw [if_pos h2, if_pos h2]
    · rw [if_neg h2] at h ⊢
      rw [if_neg h2]
      unfold lcmU32; rw [if_pos h]

/-- A successful unframed `isoInterval`. -/
theorem isoInterval_unframed {sduC sduP lC lP n : Nat} (h : isoInterval sduC sduP false lC lP = .ok (some n)) :
    ¬ (sduC = 0 ∧ sduP = 0) ∧ unframedInterval (Nat.lcm 1250 (sduLcm sduC sduP)) sduC sduP lC lP = .ok (some n) := by
  unfold isoInterval at h
  rw [if_neg (by decide)] at h
  split at h
  · cases h
  · rename_i sdu hs
    obtain ⟨h0, rfl⟩ := commonSduInterval_ok hs
    refine ⟨h0, ?_⟩
    split at h
    · cases h
    · rename_i i hl
      obtain ⟨rfl, -⟩ := lcmU32_ok hl
      exact h

theorem lcm1250 (k : Nat) : 1250 * (Nat.lcm 1250 k / 1250) = Nat.lcm 1250 k :=
  Nat.mul_div_cancel' (Nat.dvd_lcm_left 1250 k)

/-- The interval that is chosen is legal. -/
theorem isoInterval_legal {sduC sduP : Nat} {framed : Bool} {lC lP n : Nat} (hC : sduC < 2 ^ 24)
    (hP : sduP < 2 ^ 24) (h : isoInterval sduC sduP framed (lC * 1000) (lP * 1000) = .ok (some n)) :
    LegalInterval sduC sduP framed lC lP n ∧ n < 65536 := by
  cases framed with
  | true =>
    unfold isoInterval at h
    rw [if_pos rfl] at h
    have hlt : divCeil (max sduC sduP) 1250 ≤ 65535 := (divCeil_spec _ _).2 (by omega)
    rw [Nat.mod_eq_of_lt (by omega)] at h
    cases h
    refine ⟨?_, by omega⟩
    unfold LegalInterval
    rw [if_pos rfl]
    have := (divCeil_spec (max sduC sduP) _).1 (Nat.le_refl _)
    refine ⟨by omega, by omega, ?_⟩
    intro m h1 h2
    exact (divCeil_spec _ _).2 (by omega)
  | false =>
    obtain ⟨h0, h⟩ := isoInterval_unframed h
    unfold unframedInterval at h
    split at h
    · cases h
    · split at h
      · rename_i hover hlim
        cases h
        obtain ⟨hn, hlC, hlP⟩ := hlim
        refine ⟨?_, by omega⟩
        unfold LegalInterval
        rw [if_neg (by decide), lcm1250]
        have hpos : 0 < Nat.lcm 1250 (sduLcm sduC sduP) := Nat.lcm_pos (by decide) (sduLcm_pos h0)
        have hd := (sduLcm_dvd h0).1 (Nat.dvd_lcm_right 1250 (sduLcm sduC sduP))
        refine ⟨?_, hd.1, hd.2, ?_, ?_, ?_⟩
        · exact Nat.div_pos (Nat.le_of_dvd hpos (Nat.dvd_lcm_left _ _)) (by decide)
        · intro m hm h1 h2
          have hdvd : Nat.lcm 1250 (sduLcm sduC sduP) ∣ 1250 * m :=
            Nat.lcm_dvd (Nat.dvd_mul_right _ _) ((sduLcm_dvd h0).2 ⟨h1, h2⟩)
          have := Nat.le_of_dvd (by omega) hdvd
          exact Nat.div_le_of_le_mul this
        · intro hc
          rcases hlC with h' | h'
          · exact absurd h' hc
          · omega
        · intro hp
          rcases hlP with h' | h'
          · exact absurd h' hp
          · omega
      · cases h

/-- The computation does not fail if the interval is less than about 2147 seconds. -/
theorem isoInterval_total {sduC sduP : Nat} {framed : Bool} (lC lP : Nat)
    (h : framed = true ∨ ¬ (sduC = 0 ∧ sduP = 0) ∧ 2 * Nat.lcm 1250 (sduLcm sduC sduP) < u32) :
    ∃ r, isoInterval sduC sduP framed lC lP = .ok r := by
  unfold isoInterval
  by_cases hf : framed = true
  · rw [if_pos hf]; exact ⟨_, rfl⟩
  · rw [if_neg hf]
    obtain ⟨h0, h2⟩ := h.resolve_left hf
    have hle : sduLcm sduC sduP ≤ Nat.lcm 1250 (sduLcm sduC sduP) :=
      Nat.le_of_dvd (Nat.lcm_pos (by decide) (sduLcm_pos h0)) (Nat.dvd_lcm_right _ _)
    rw [commonSduInterval_total h0 (by omega)]
    have hl : lcmU32 1250 (sduLcm sduC sduP) = .ok (Nat.lcm 1250 (sduLcm sduC sduP)) := by
      unfold lcmU32; rw [if_pos (by omega)]
    simp only [hl]
    have hC : sduC ≤ Nat.lcm 1250 (sduLcm sduC sduP) := by
      by_cases hc : sduC = 0
      · omega
      · exact Nat.le_of_dvd (by have := sduLcm_pos h0; omega)
          (((sduLcm_dvd h0).1 (Nat.dvd_lcm_right 1250 (sduLcm sduC sduP))).1 hc)
    have hP : sduP ≤ Nat.lcm 1250 (sduLcm sduC sduP) := by
      by_cases hc : sduP = 0
      · omega
      · exact Nat.le_of_dvd (by have := sduLcm_pos h0; omega)
          (((sduLcm_dvd h0).1 (Nat.dvd_lcm_right 1250 (sduLcm sduC sduP))).2 hc)
    unfold unframedInterval
    rw [if_neg (by omega)]
    split
    · exact ⟨_, rfl⟩
    · exact ⟨_, rfl⟩

end Verif.Iso
