import Verif.Apcf.Spec
/-!
# C78: the filters of APCF are bounded sets of filters with conditions -/
namespace Verif.Apcf

/-- A condition in the table of its kind. -/
def Cond.at (x : Cond) (i : Nat) : Entry := ⟨i, x.tag, x.data, x.mask⟩

/-- The tables hold the filters of the host. -/
structure Rel (c : Caps) (s : St) (l : List Flt) : Prop where
  filters : s.filters = l.map (fun f => ⟨f.index, f.params⟩)
  distinct : (l.map (·.index)).Nodup
  conds : ∀ f ∈ l, ∀ k, (s.lists k).filter (fun e => e.index = f.index) = (f.conds k).map (·.at f.index)
  owned : ∀ k, ∀ e ∈ s.lists k, ∃ f ∈ l, f.index = e.index
  size : ∀ k, (s.lists k).length = total l k
  fits : l.length ≤ c.filters ∧ ∀ k, total l k ≤ c.list k

theorem Rel.fresh (c : Caps) : Rel c .fresh [] :=
  ⟨rfl, by simp, nofun, nofun, fun _ => rfl, by simp, fun _ => by simp [total]⟩

theorem Rel.has {c : Caps} {s : St} {l : List Flt} (h : Rel c s l) (i : Nat) : hasIndex s i = (find l i).isSome := by
  rw [hasIndex, h.filters, find, Bool.eq_iff_iff]
  simp [List.find?_isSome]

theorem spaces_eq {cap n : Nat} (hc : cap < 256) (hn : n ≤ cap) : spaces cap n = cap - n := by
  rw [spaces]; omega

theorem find_mem {l : List Flt} {i : Nat} (h : (find l i).isSome) : ∃ f ∈ l, f.index = i := by
  simpa [find, List.find?_isSome] using h

/-- A filter of a table by an index other than that of the change. -/
theorem filter_other {l : List Entry} {i j : Nat} (h : i ≠ j) (p : Entry → Bool) (hp : ∀ e, e.index = j → p e = true) :
    (l.filter p).filter (fun e => e.index = j) = l.filter (fun e => e.index = j) := by
  rw [List.filter_filter]
  congr 1
  funext e
  by_cases he : e.index = j
  · simp [he, hp e he]
  · simp [he]

theorem total_change {l : List Flt} {i : Nat} {k : Kind} {f : List Cond → List Cond} (j : Kind) :
    total (change l i k f) j = (l.map (fun x => (if x.index = i ∧ j = k then (f (x.conds j)).length else (x.conds j).length))).sum := by
  rw [total, change, List.map_map]
  congr 1
  refine List.map_congr_left (fun x _ => ?_)
  by_cases hx : x.index = i <;> by_cases hj : j = k <;> simp [hx, hj]

theorem change_index (l : List Flt) (i : Nat) (k : Kind) (f : List Cond → List Cond) :
    (change l i k f).map (·.index) = l.map (·.index) := by
  rw [change, List.map_map]
  refine List.map_congr_left (fun x _ => ?_)
  by_cases hx : x.index = i <;> simp [hx]

theorem filter_length (p : Entry → Bool) (t : List Entry) :
    t.length = (t.filter p).length + (t.filter (fun e => !p e)).length := by
  induction t with
  | nil => rfl
  | cons e t ih => by_cases h : p e <;> simp [h, ih] <;> omega

/-- Lengths of a table and of its parts, for a filter with conditions of its own. -/
theorem length_parts {l : List Flt} {k : Kind} : ∀ {t : List Entry}, (l.map (·.index)).Nodup →
    (∀ f ∈ l, t.filter (fun e => e.index = f.index) = (f.conds k).map (·.at f.index)) →
    (∀ e ∈ t, ∃ f ∈ l, f.index = e.index) → t.length = total l k := by
  induction l with
  | nil =>
    intro t _ _ ho
    cases t with
    | nil => rfl
    | cons e _ => obtain ⟨_, h, _⟩ := ho e (by simp); simp at h
  | cons f l ih =>
    intro t hd hc ho
    simp only [List.map_cons, List.nodup_cons] at hd
    have h1 := hc f (by simp)
    have h2 : (t.filter (fun e => !(e.index = f.index))).length = total l k := by
      apply ih hd.2
      · intro g hg
        have hne : f.index ≠ g.index := fun h => hd.1 (by rw [h]; exact List.mem_map_of_mem hg)
        rw [filter_other hne _ (fun e he => by simp [he, Ne.symm hne]), hc g (List.mem_cons_of_mem _ hg)]
      · intro e he
        simp only [List.mem_filter, Bool.not_eq_true', decide_eq_false_iff_not] at he
        obtain ⟨g, hg, hge⟩ := ho e he.1
        rcases List.mem_cons.mp hg with rfl | hg
        · exact absurd hge.symm he.2
        · exact ⟨g, hg, hge⟩
    have h3 : t.length = (t.filter (fun e => e.index = f.index)).length + (t.filter (fun e => !(e.index = f.index))).length :=
      filter_length (fun e => decide (e.index = f.index)) t
    rw [h3, h1, h2]
    simp [total]

/-- A change of one table that is a change of the conditions of one filter. -/
theorem Rel.change {c : Caps} {s : St} {l : List Flt} (h : Rel c s l) {i : Nat} {k : Kind} {t : List Entry}
    {f : List Cond → List Cond} (hi : (find l i).isSome)
    (ho : ∀ e ∈ t, e.index = i ∨ e ∈ s.lists k)
    (hsame : ∀ j, j ≠ i → t.filter (fun e => e.index = j) = (s.lists k).filter (fun e => e.index = j))
    (hnew : ∀ cs : List Cond, (s.lists k).filter (fun e => e.index = i) = cs.map (·.at i) →
      t.filter (fun e => e.index = i) = (f cs).map (·.at i))
    (hfit : total (change l i k f) k ≤ c.list k) :
    Rel c { s with lists := fun j => if j = k then t else s.lists j } (Apcf.change l i k f) ∧
      t.length = total (Apcf.change l i k f) k := by
  have hlen : ∀ j, j ≠ k → total (Apcf.change l i k f) j = total l j := fun j hj => by
    rw [total_change, total]; simp [hj]
  have hd : ((Apcf.change l i k f).map (·.index)).Nodup := by rw [change_index]; exact h.distinct
  have hconds : ∀ g ∈ Apcf.change l i k f, ∀ j, (if j = k then t else s.lists j).filter (fun e => e.index = g.index) =
      (g.conds j).map (·.at g.index) := by
    intro g hg j
    simp only [Apcf.change, List.mem_map] at hg
    obtain ⟨g0, hg0, rfl⟩ := hg
    have h0 := h.conds g0 hg0
    by_cases hgi : g0.index = i
    · by_cases hj : j = k
      · subst hj
        simp only [hgi, if_true]
        refine hnew _ ?_
        rw [← hgi]; exact h0 j
      · simp only [hgi, hj, if_true, if_false]
        rw [← hgi]; exact h0 j
    · by_cases hj : j = k
      · subst hj
        simp only [hgi, if_true, if_false]
        rw [hsame _ hgi]; exact h0 j
      · simp only [hgi, hj, if_false]
        exact h0 j
  have howned : ∀ j, ∀ e ∈ (if j = k then t else s.lists j), ∃ g ∈ Apcf.change l i k f, g.index = e.index := by
    have key : ∀ n, (∃ g ∈ l, g.index = n) → ∃ g ∈ Apcf.change l i k f, g.index = n := by
      intro n hn
      have : n ∈ (Apcf.change l i k f).map (·.index) := by
        rw [change_index]; exact List.mem_map.mpr hn
      exact List.mem_map.mp this
    intro j e he
    by_cases hj : j = k
    · subst hj
      simp only [if_true] at he
      rcases ho e he with h1 | h1
      · exact key _ (by rw [h1]; exact find_mem hi)
      · exact key _ (h.owned j e h1)
    · simp only [hj, if_false] at he
      exact key _ (h.owned j e he)
  have hlk : t.length = total (Apcf.change l i k f) k := by
    refine length_parts hd (fun g hg => ?_) (fun e he => ?_)
    · have := hconds g hg k; simpa using this
    · have := howned k e (by simpa using he); exact this
  refine ⟨⟨?_, hd, hconds, howned, fun j => ?_, ?_, fun j => ?_⟩, hlk⟩
  · rw [h.filters, Apcf.change, List.map_map]
    refine List.map_congr_left (fun x _ => ?_)
    by_cases hx : x.index = i <;> simp [hx]
  · by_cases hj : j = k
    · subst hj; simpa using hlk
    · simp only [hj, if_false]; rw [hlen j hj]; exact h.size j
  · simpa [Apcf.change] using h.fits.1
  · by_cases hj : j = k
    · subst hj; exact hfit
    · rw [hlen j hj]; exact h.fits.2 j

theorem sum_le (g h : Flt → Nat) : ∀ l : List Flt, (∀ x ∈ l, g x ≤ h x) → (l.map g).sum ≤ (l.map h).sum
  | [], _ => Nat.le_refl _
  | x :: l, hl => by
    have h1 := hl x (by simp)
    have h2 := sum_le g h l (fun y hy => hl y (List.mem_cons_of_mem _ hy))
    simp only [List.map_cons, List.sum_cons]
    omega

theorem sum_one (g h : Flt → Nat) (i : Nat) : ∀ l : List Flt, (l.map (·.index)).Nodup → (∃ f ∈ l, f.index = i) →
    (∀ x ∈ l, g x = if x.index = i then h x + 1 else h x) → (l.map g).sum = (l.map h).sum + 1
  | [], _, hm, _ => by obtain ⟨_, h, _⟩ := hm; cases h
  | x :: l, hd, hm, hg => by
    simp only [List.map_cons, List.nodup_cons] at hd
    have h1 := hg x (by simp)
    simp only [List.map_cons, List.sum_cons]
    by_cases hx : x.index = i
    · rw [if_pos hx] at h1
      have : l.map g = l.map h := List.map_congr_left (fun y hy => by
        rw [hg y (List.mem_cons_of_mem _ hy), if_neg]
        rintro hy'
        exact hd.1 (by rw [hx, ← hy']; exact List.mem_map_of_mem hy))
      rw [this]; omega
    · rw [if_neg hx] at h1
      have := sum_one g h i l hd.2 (by
        obtain ⟨f, hf, hfi⟩ := hm
        rcases List.mem_cons.mp hf with rfl | hf
        · exact absurd hfi hx
        · exact ⟨f, hf, hfi⟩) (fun y hy => hg y (List.mem_cons_of_mem _ hy))
      omega

theorem total_le {l : List Flt} {i : Nat} {k : Kind} {f : List Cond → List Cond} (hf : ∀ cs, (f cs).length ≤ cs.length) :
    total (change l i k f) k ≤ total l k := by
  rw [total_change, total]
  refine sum_le _ _ l (fun x _ => ?_)
  have := hf (x.conds k)
  split <;> omega

theorem total_add {l : List Flt} {i : Nat} {k : Kind} {x : Cond} (hd : (l.map (·.index)).Nodup) (hi : (find l i).isSome) :
    total (change l i k (fun cs => cs ++ [x])) k = total l k + 1 := by
  rw [total_change, total]
  refine sum_one _ _ i l hd (find_mem hi) (fun y _ => ?_)
  simp

/-- One command about a condition. -/
theorem condition_step {c : Caps} {s : St} {l : List Flt} (h : Rel c s l) (hc : ∀ k, c.list k < 256) (k : Kind) (a : Action)
    (e e' : Entry) (hi : (split k e').index = e.index)
    (hx : a ≠ .clear → split k e' = (condOf k e).at e.index) (hn : ∀ n, a = .other n → k ≠ .address)
    (f : Bool) : ∃ s', condition c s k a e' = (.answer (expect c.filters c.list l (.condition k a f e)).1.1
        (expect c.filters c.list l (.condition k a f e)).1.2, s') ∧ Rel c s' (expect c.filters c.list l (.condition k a f e)).2 := by
  have hk : ¬(k = .address ∧ a ≠ .add ∧ a ≠ .delete ∧ a ≠ .clear) := by
    rintro ⟨h1, h2, h3, h4⟩
    cases a with
    | other n => exact hn n rfl h1
    | _ => simp_all
  have hsame : { s with lists := fun j => if j = k then s.lists k else s.lists j } = s := by
    cases s
    simp only [St.mk.injEq, true_and]
    funext j
    by_cases hj : j = k <;> simp [hj]
  have hsp : ∀ n, n ≤ c.list k → spaces (c.list k) n = c.list k - n := fun n hn => spaces_eq (hc k) hn
  have hfit := h.fits.2 k
  have hz := h.size k
  simp only [condition, update, h.has, hi, expect, hk, if_false]
  cases hf : (find l e.index).isSome with
  | false =>
    have hno : (find l e.index).isNone = true := by cases hq : find l e.index <;> simp_all
    rw [if_pos rfl, if_pos hno]
    exact ⟨s, by rw [hsame, hz, hsp _ hfit], h⟩
  | true =>
    have hno : ¬((find l e.index).isNone = true) := by cases hq : find l e.index <;> simp_all
    rw [if_neg (by simp), if_neg hno]
    cases a with
    | add =>
      simp only [hz]
      by_cases hfull : total l k = c.list k
      · rw [if_pos hfull, if_pos hfull]
        exact ⟨s, by rw [hsame, hz, hsp _ hfit, hfull, Nat.sub_self], h⟩
      · rw [if_neg hfull, if_neg hfull]
        have hx := hx (by simp)
        have hr := h.change (i := e.index) (k := k) (t := s.lists k ++ [(condOf k e).at e.index])
          (f := fun cs => cs ++ [condOf k e]) hf (fun x hx => ?_) (fun j hj => ?_) (fun cs hcs => ?_)
        · have hlen : total (change l e.index k (fun cs => cs ++ [condOf k e])) k = total l k + 1 :=
            total_add h.distinct hf
          obtain ⟨h1, h2⟩ := hr (by omega)
          rw [hx]
          refine ⟨_, ?_, h1⟩
          rw [h2, hlen, hsp _ (by omega), Nat.sub_add_eq]
        · rcases List.mem_append.mp hx with hx | hx
          · exact Or.inr hx
          · rw [List.mem_singleton.mp hx]; exact Or.inl rfl
        · simp [List.filter_append, Cond.at, Ne.symm hj]
        · simp [List.filter_append, hcs, Cond.at]
    | delete =>
      have hx := hx (by simp)
      have hle : total (change l e.index k (fun cs => cs.filter (fun x => x ≠ condOf k e))) k ≤ total l k := total_le (fun cs => List.length_filter_le _ _)
      obtain ⟨h1, h2⟩ := h.change (i := e.index) (k := k)
        (t := (s.lists k).filter (fun x => !(x = (condOf k e).at e.index)))
        (f := fun cs => cs.filter (fun x => x ≠ condOf k e)) hf (fun x hx => Or.inr (List.mem_filter.mp hx).1) (fun j hj => by
          rw [filter_other (i := e.index) (Ne.symm hj)]
          intro x hx'
          simp only [Bool.not_eq_true', decide_eq_false_iff_not]
          rintro rfl
          exact hj hx'.symm) (fun cs hcs => by
          rw [List.filter_filter]
          have : (fun a : Entry => decide (a.index = e.index) && !decide (a = (condOf k e).at e.index)) =
              (fun a => !decide (a = (condOf k e).at e.index) && decide (a.index = e.index)) := by
            funext a; rw [Bool.and_comm]
          rw [this, ← List.filter_filter, hcs, List.filter_map]
          congr 1
          refine List.filter_congr (fun x _ => ?_)
          cases x; cases hq : condOf k e
          simp [Cond.at]) (by omega)
      simp only [hx]
      exact ⟨_, by rw [h2, hsp _ (by omega)], h1⟩
    | clear =>
      have hle : total (change l e.index k (fun _ => [])) k ≤ total l k := total_le (fun cs => by simp [List.length_filter_le])
      obtain ⟨h1, h2⟩ := h.change (i := e.index) (k := k)
        (t := (s.lists k).filter (fun x => !(x.index = e.index)))
        (f := fun _ => []) hf (fun x hx => Or.inr (List.mem_filter.mp hx).1) (fun j hj => by
          rw [filter_other (i := e.index) (Ne.symm hj)]
          intro x hx'
          simp [hx', hj]) (fun cs hcs => by
          rw [List.filter_filter]
          simp) (by omega)
      exact ⟨_, by rw [h2, hsp _ (by omega)], h1⟩
    | other n => exact ⟨s, by rw [hsame, hz, hsp _ hfit], h⟩

theorem filter_filters (l : List Flt) (i : Nat) :
    (l.map (fun f => (⟨f.index, f.params⟩ : Filter))).filter (fun f => !(f.index = i)) =
      (l.filter (fun f => f.index ≠ i)).map (fun f => ⟨f.index, f.params⟩) := by
  rw [List.filter_map]
  congr 1
  refine List.filter_congr (fun f _ => ?_)
  simp

/-- Deleting a filter deletes its conditions and no others. -/
theorem Rel.delete {c : Caps} {s : St} {l : List Flt} (h : Rel c s l) (i : Nat) :
    Rel c (clearIndex { s with filters := s.filters.filter (fun f => !(f.index = i)) } i) (l.filter (fun f => f.index ≠ i)) := by
  have hd : ((l.filter (fun f => f.index ≠ i)).map (·.index)).Nodup :=
    List.Nodup.sublist (List.Sublist.map _ List.filter_sublist) h.distinct
  have hc : ∀ f ∈ l.filter (fun f => f.index ≠ i), ∀ k, ((s.lists k).filter (fun e => !(e.index = i))).filter
      (fun e => e.index = f.index) = (f.conds k).map (·.at f.index) := by
    intro f hf k
    simp only [List.mem_filter, ne_eq, decide_not, Bool.not_eq_true', decide_eq_false_iff_not] at hf
    rw [filter_other (i := i) (Ne.symm hf.2) _ (fun e he => by simp [he, hf.2])]
    exact h.conds f hf.1 k
  have ho : ∀ k, ∀ e ∈ (s.lists k).filter (fun e => !(e.index = i)), ∃ f ∈ l.filter (fun f => f.index ≠ i), f.index = e.index := by
    intro k e he
    simp only [List.mem_filter, Bool.not_eq_true', decide_eq_false_iff_not] at he
    obtain ⟨f, hf, hfe⟩ := h.owned k e he.1
    exact ⟨f, List.mem_filter.mpr ⟨hf, by simpa [hfe] using he.2⟩, hfe⟩
  refine ⟨?_, hd, hc, ho, fun k => length_parts hd (fun f hf => hc f hf k) (ho k), ?_, fun k => ?_⟩
  · simp only [clearIndex, h.filters, filter_filters]
  · exact Nat.le_trans (List.length_filter_le _ _) h.fits.1
  · rw [← length_parts hd (fun f hf => hc f hf k) (ho k)]
    exact Nat.le_trans (List.length_filter_le _ _) (by rw [h.size]; exact h.fits.2 k)

theorem filter_one (l : List Flt) (i : Nat) (hd : (l.map (·.index)).Nodup) (hi : ∃ f ∈ l, f.index = i) :
    (l.filter (fun f => f.index ≠ i)).length + 1 = l.length := by
  induction l with
  | nil => obtain ⟨_, h, _⟩ := hi; cases h
  | cons f l ih =>
    simp only [List.map_cons, List.nodup_cons] at hd
    by_cases hf : f.index = i
    · have : l.filter (fun f => f.index ≠ i) = l := List.filter_eq_self.mpr (fun g hg => by
        simp only [ne_eq, decide_not, Bool.not_eq_true', decide_eq_false_iff_not]
        rintro hgi
        exact hd.1 (by rw [hf, ← hgi]; exact List.mem_map_of_mem hg))
      rw [List.filter_cons_of_neg (by simp [hf]), this]
      rfl
    · obtain ⟨g, hg, hgi⟩ := hi
      rcases List.mem_cons.mp hg with rfl | hg
      · exact absurd hgi hf
      · rw [List.filter_cons_of_pos (by simp [hf])]
        have := ih hd.2 ⟨g, hg, hgi⟩
        simp only [List.length_cons]
        omega

/-- One command. -/
theorem step_rel {c : Caps} {s : St} {l : List Flt} (h : Rel c s l) (hc : c.filters < 256 ∧ ∀ k, c.list k < 256) (x : Cmd)
    (hf : formed x = true) : ∃ s', step c s x = (.answer (expect c.filters c.list l x).1.1 (expect c.filters c.list l x).1.2, s') ∧
      Rel c s' (expect c.filters c.list l x).2 := by
  have hlen : s.filters.length = l.length := by rw [h.filters, List.length_map]
  have hsp : spaces c.filters s.filters.length = c.filters - l.length := by rw [hlen]; exact spaces_eq hc.1 h.fits.1
  cases x with
  | enable on => exact ⟨_, rfl, h.filters, h.distinct, h.conds, h.owned, h.size, h.fits⟩
  | features => exact ⟨_, rfl, h⟩
  | reset => exact ⟨_, rfl, Rel.fresh c⟩
  | discovery f => simp only [formed] at hf; subst hf; exact ⟨_, rfl, h⟩
  | filter a f i p =>
    cases a with
    | add =>
      simp only [formed] at hf
      subst hf
      simp only [step, addFilter, h.has, hsp, expect, if_true]
      cases hi : (find l i).isSome with
      | true => exact ⟨s, rfl, h⟩
      | false =>
        simp only [Bool.false_eq_true, if_false]
        by_cases hfull : l.length = c.filters
        · rw [if_pos (by omega), if_pos hfull]
          exact ⟨s, rfl, h⟩
        · have := h.fits.1
          rw [if_neg (by omega), if_neg hfull]
          refine ⟨_, rfl, ?_, ?_, ?_, ?_, ?_, ?_, ?_⟩
          · simp [h.filters]
          · rw [List.map_append, List.nodup_append]
            refine ⟨h.distinct, by simp, ?_⟩
            intro a ha b hb hab
            simp only [List.map_cons, List.map_nil, List.mem_singleton] at hb
            obtain ⟨g, hg, hgi⟩ := List.mem_map.mp ha
            have : (find l i).isSome = true := by
              simp only [find, List.find?_isSome, decide_eq_true_eq]
              exact ⟨g, hg, hgi.trans (hab.trans hb)⟩
            rw [hi] at this; cases this
          · intro g hg k
            rcases List.mem_append.mp hg with hg | hg
            · exact h.conds g hg k
            · rw [List.mem_singleton.mp hg]
              simp only [List.map_nil, List.filter_eq_nil_iff, decide_eq_true_eq]
              intro e he hei
              obtain ⟨g, hg, hgi⟩ := h.owned k e he
              have : (find l i).isSome = true := by
                simp only [find, List.find?_isSome, decide_eq_true_eq]
                exact ⟨g, hg, hgi.trans hei⟩
              rw [hi] at this; cases this
          · intro k e he
            obtain ⟨g, hg, hgi⟩ := h.owned k e he
            exact ⟨g, List.mem_append_left _ hg, hgi⟩
          · intro k; rw [h.size k]; simp [total]
          · simp; omega
          · intro k; have := h.fits.2 k; simpa [total] using this
    | delete =>
      simp only [formed] at hf
      subst hf
      simp only [step, deleteFilter, h.has, hsp, expect, if_true]
      cases hi : (find l i).isSome with
      | false => exact ⟨s, rfl, h⟩
      | true =>
        simp only [Bool.true_eq_false, if_false, if_true]
        refine ⟨_, ?_, h.delete i⟩
        have := filter_one l i h.distinct (find_mem hi)
        have := h.fits.1
        rw [Nat.mod_eq_of_lt (by omega)]
    | clear =>
      refine ⟨_, rfl, rfl, by simp [expect], by intro g hg; simp [expect] at hg, by intro k e he; simp at he, ?_, ?_, ?_⟩
      · intro k; rfl
      · simp [expect]
      · intro k; simp [expect, total]
    | other n => exact ⟨_, rfl, h⟩
  | condition k a f e =>
    cases k with
    | address =>
      cases a with
      | other n => exact ⟨s, by simp [step, expect], by simpa [expect] using h⟩
      | add =>
        simp only [formed] at hf; subst hf
        exact condition_step h hc.2 .address .add e ⟨e.index, e.tag, e.data, []⟩ rfl (fun _ => rfl) nofun true
      | delete =>
        simp only [formed] at hf; subst hf
        exact condition_step h hc.2 .address .delete e ⟨e.index, e.tag, e.data, []⟩ rfl (fun _ => rfl) nofun true
      | clear =>
        simp only [formed] at hf; subst hf
        exact condition_step h hc.2 .address .clear e ⟨e.index, 2, List.replicate 6 0, []⟩ rfl (fun h => absurd rfl h) nofun true
    | adType =>
      cases a <;> simp only [formed] at hf <;> subst hf <;>
        exact condition_step h hc.2 .adType _ e e rfl (fun _ => rfl) (fun _ _ => by simp) true
    | service =>
      cases a <;> simp only [formed] at hf <;> subst hf <;>
        exact condition_step h hc.2 .service _ e e rfl (fun _ => rfl) (fun _ _ => by simp) true
    | solicitation =>
      cases a <;> simp only [formed] at hf <;> subst hf <;>
        exact condition_step h hc.2 .solicitation _ e e rfl (fun _ => rfl) (fun _ _ => by simp) true
    | name =>
      cases a <;> simp only [formed] at hf <;> subst hf <;>
        exact condition_step h hc.2 .name _ e e rfl (fun _ => rfl) (fun _ _ => by simp) true
    | manufacturer =>
      cases a <;> simp only [formed] at hf <;> subst hf <;>
        exact condition_step h hc.2 .manufacturer _ e e rfl (fun _ => rfl) (fun _ _ => by simp) true
    | serviceData =>
      cases a <;> simp only [formed] at hf <;> subst hf <;>
        exact condition_step h hc.2 .serviceData _ e e rfl (fun _ => rfl) (fun _ _ => by simp) true

/-- **C78.** The answers to every history of APCF commands that are long enough are those of a set of filters with their
own conditions: a filter can be added if its index is free and there is room, and then conditions can be added to it;
deleting it takes its conditions with it and no others. Each answer tells the room that is left. The controller never
aborts. -/
theorem C78_filters (c : Caps) (hc : c.filters < 256 ∧ ∀ k, c.list k < 256) (xs : List Cmd) (hf : ∀ x ∈ xs, formed x = true) :
    (run c .fresh xs).1 = expected c.filters c.list [] xs := by
  suffices key : ∀ (xs : List Cmd) (s : St) (l : List Flt), (∀ x ∈ xs, formed x = true) → Rel c s l →
      (run c s xs).1 = expected c.filters c.list l xs from key xs _ _ hf (Rel.fresh c)
  intro xs
  induction xs with
  | nil => intros; rfl
  | cons x xs ih =>
    intro s l hf h
    obtain ⟨s', h1, h2⟩ := step_rel h hc x (hf x (by simp))
    simp only [run, h1, expected]
    rw [ih s' _ (fun y hy => hf y (List.mem_cons_of_mem _ hy)) h2]

/-- Room for two filters and three conditions of each kind. -/
def small : Caps := ⟨2, fun _ => 3⟩

/-- Two filters, conditions of both, the first is deleted. -/
example : (run small .fresh [.filter .add true 5 [1], .filter .add true 5 [2], .filter .add true 6 [], .filter .add true 7 [],
    .condition .name .add true ⟨5, 0, [1, 2, 255, 255], []⟩, .condition .name .add true ⟨6, 0, [3, 255], []⟩,
    .condition .name .add true ⟨7, 0, [3, 255], []⟩, .filter .delete true 5 [], .condition .name .delete true ⟨6, 0, [9, 255], []⟩,
    .condition .name .clear true ⟨6, 0, [], []⟩]).1 =
    [.answer 0 1, .answer 0x12 1, .answer 0 0, .answer 7 0, .answer 0 2, .answer 0 1, .answer 2 1, .answer 0 1, .answer 0 2,
      .answer 0 3] := by decide +kernel

/-- **C78, false in part.** A Set Filtering Parameters or Broadcaster Address command that is too short aborts the
controller, in every state: the check is made of the outer part of the command. -/
theorem C78_short_violated (c : Caps) (s : St) (i : Nat) (p : List Nat) (e : Entry) :
    (step c s (.filter .add false i p)).1 = .abort ∧ (step c s (.filter .delete false i p)).1 = .abort ∧
    (step c s (.condition .address .add false e)).1 = .abort ∧ (step c s (.condition .address .delete false e)).1 = .abort ∧
    (step c s (.condition .address .clear false e)).1 = .abort := ⟨rfl, rfl, rfl, rfl, rfl⟩

/-- **C78.** Other commands that are too short are refused and change nothing. -/
theorem C78_short (c : Caps) (s : St) (x : Cmd) (hf : formed x = false) (hx : (step c s x).1 ≠ .abort) :
    step c s x = (.refused, s) := by
  cases x with
  | enable => simp [formed] at hf
  | features => simp [formed] at hf
  | reset => simp [formed] at hf
  | discovery f => simp only [formed] at hf; subst hf; rfl
  | filter a f i p => cases a <;> simp_all [formed, step]
  | condition k a f e => cases k <;> cases a <;> simp_all [formed, step]

end Verif.Apcf
