import Verif.Le.Basic
/-!
# Association list maps: helper lemmas
-/

namespace Verif.Le

variable {κ α : Type} [DecidableEq κ]

theorem mapFind_nil (k : κ) : mapFind ([] : List (κ × α)) k = none := rfl

theorem mapFind_cons (k' : κ) (a : α) (m : List (κ × α)) (k : κ) :
    mapFind ((k', a) :: m) k = if k' = k then some a else mapFind m k := by
  unfold mapFind
  by_cases h : k' = k <;> simp [List.find?, h]

theorem mapFind_mapSet (m : List (κ × α)) (k : κ) (a : α) (h : κ) :
    mapFind (mapSet m k a) h = if k = h then some a else mapFind m h := by
  induction m with
  | nil => simp [mapSet, mapFind_cons, mapFind_nil]
  | cons e m ih =>
    obtain ⟨k', a'⟩ := e
    simp only [mapSet]
    by_cases hk : k' = k
    · subst hk
      rw [if_pos rfl, mapFind_cons, mapFind_cons]
      by_cases hh : k' = h <;> simp [hh]
    · rw [if_neg hk, mapFind_cons, mapFind_cons, ih]
      by_cases hh : k' = h
      · subst hh; rw [if_pos rfl, if_pos rfl, if_neg (fun e => hk e.symm)]
      · rw [if_neg hh, if_neg hh]

theorem mapFind_mapErase (m : List (κ × α)) (k h : κ) :
    mapFind (mapErase m k) h = if k = h then none else mapFind m h := by
  induction m with
  | nil => simp [mapErase, mapFind_nil]
  | cons e m ih =>
    obtain ⟨k', a'⟩ := e
    unfold mapErase at ih ⊢
    by_cases hk : k' = k
    · subst hk
      rw [List.filter_cons_of_neg (by simp), ih, mapFind_cons]
      by_cases hh : k' = h <;> simp [hh]
    · rw [List.filter_cons_of_pos (by simpa using hk), mapFind_cons, mapFind_cons, ih]
      by_cases hh : k' = h
      · subst hh; rw [if_pos rfl, if_pos rfl, if_neg (fun e => hk e.symm)]
      · rw [if_neg hh, if_neg hh]

theorem mapFind_mem {m : List (κ × α)} {k : κ} {a : α} (h : mapFind m k = some a) : (k, a) ∈ m := by
  induction m with
  | nil => cases h
  | cons e m ih =>
    obtain ⟨k', a'⟩ := e
    rw [mapFind_cons] at h
    split at h
    · rename_i hk; cases h; subst hk; simp
    · exact List.mem_cons_of_mem _ (ih h)

theorem mapFind_of_mem {m : List (κ × α)} (hn : (m.map (·.1)).Nodup) {k : κ} {a : α}
    (h : (k, a) ∈ m) : mapFind m k = some a := by
  induction m with
  | nil => cases h
  | cons e m ih =>
    obtain ⟨k', a'⟩ := e
    rw [mapFind_cons]
    simp only [List.map_cons, List.nodup_cons] at hn
    rcases List.mem_cons.1 h with h | h
    · cases h; rw [if_pos rfl]
    · have hk : k' ≠ k := by
        rintro rfl
        exact hn.1 (List.mem_map.2 ⟨_, h, rfl⟩)
      rw [if_neg hk]; exact ih hn.2 h

theorem mapFind_none {m : List (κ × α)} {k : κ} : mapFind m k = none ↔ k ∉ m.map (·.1) := by
  induction m with
  | nil => simp [mapFind_nil]
  | cons e m ih =>
    obtain ⟨k', a'⟩ := e
    rw [mapFind_cons]
    by_cases hk : k' = k
    · simp [hk]
    · rw [if_neg hk, ih]
      simp only [List.map_cons, List.mem_cons, not_or]
      exact ⟨fun h => ⟨fun e => hk e.symm, h⟩, fun h => h.2⟩

theorem mapSet_keys (m : List (κ × α)) (k : κ) (a : α) :
    (mapSet m k a).map (·.1) = if k ∈ m.map (·.1) then m.map (·.1) else m.map (·.1) ++ [k] := by
  induction m with
  | nil => simp [mapSet]
  | cons e m ih =>
    obtain ⟨k', a'⟩ := e
    simp only [mapSet]
    by_cases hk : k' = k
    · subst hk; simp
    · rw [if_neg hk, List.map_cons, ih]
      by_cases hm : k ∈ m.map (·.1)
      · rw [if_pos hm, if_pos (by simp at hm ⊢; exact Or.inr hm)]; rfl
      · rw [if_neg hm, if_neg]
        · rfl
        · simp only [List.map_cons, List.mem_cons, not_or]; exact ⟨fun e => hk e.symm, hm⟩

theorem mapSet_keys_of_find {m : List (κ × α)} {k : κ} {b : α} (h : mapFind m k = some b) (a : α) :
    (mapSet m k a).map (·.1) = m.map (·.1) := by
  rw [mapSet_keys, if_pos]
  exact Decidable.not_not.1 (fun hn => by rw [mapFind_none.2 hn] at h; cases h)

theorem mapSet_nodup {m : List (κ × α)} (hn : (m.map (·.1)).Nodup) (k : κ) (a : α) :
    ((mapSet m k a).map (·.1)).Nodup := by
  rw [mapSet_keys]
  split
  · exact hn
  · rename_i hk
    rw [List.nodup_append]
    refine ⟨hn, by simp, ?_⟩
    intro x hx y hy
    simp only [List.mem_singleton] at hy
    subst hy; rintro rfl; exact hk hx

theorem mapErase_keys_sublist (m : List (κ × α)) (k : κ) :
    ((mapErase m k).map (·.1)).Sublist (m.map (·.1)) := (List.filter_sublist).map _

end Verif.Le
