import Verif.Task.Model
/-!
# The task queue: helper lemmas
-/

namespace Verif.Task

/-! ### The ordered set -/

theorem lt_of_id_ne {a b : Task} (h : a.id ≠ b.id) : a.lt b = false → b.lt a = true := by
  simp only [Task.lt, Bool.or_eq_false_iff, Bool.and_eq_false_iff, decide_eq_false_iff_not, Bool.or_eq_true,
    Bool.and_eq_true, decide_eq_true_eq]
  omega

theorem lt_le {a b : Task} (h : a.lt b = true) : a.time ≤ b.time := by
  simp only [Task.lt, Bool.or_eq_true, Bool.and_eq_true, decide_eq_true_eq] at h
  omega

theorem lt_trans {a b c : Task} (h1 : a.lt b = true) (h2 : b.lt c = true) : a.lt c = true := by
  simp only [Task.lt, Bool.or_eq_true, Bool.and_eq_true, decide_eq_true_eq] at h1 h2 ⊢
  omega

theorem mem_insert {t : Task} (q : List Task) (h : t.id ∉ q.map (·.id)) (y : Task) :
    y ∈ insert t q ↔ y = t ∨ y ∈ q := by
  induction q with
  | nil => simp [insert]
  | cons x q ih =>
    simp only [List.map_cons, List.mem_cons, not_or] at h
    simp only [insert]
    split
    · simp
    · rename_i h1
      rw [if_pos (lt_of_id_ne h.1 (by simpa using h1))]
      simp only [List.mem_cons, ih h.2]
      constructor
      · rintro (h | h | h)
        · exact Or.inr (Or.inl h)
        · exact Or.inl h
        · exact Or.inr (Or.inr h)
      · rintro (h | h | h)
        · exact Or.inr (Or.inl h)
        · exact Or.inl h
        · exact Or.inr (Or.inr h)

theorem insert_perm {t : Task} (q : List Task) (h : t.id ∉ q.map (·.id)) : (insert t q).Perm (t :: q) := by
  induction q with
  | nil => exact List.Perm.refl _
  | cons x q ih =>
    simp only [List.map_cons, List.mem_cons, not_or] at h
    simp only [insert]
    split
    · exact List.Perm.refl _
    · rename_i h1
      rw [if_pos (lt_of_id_ne h.1 (by simpa using h1))]
      exact ((ih h.2).cons x).trans (List.Perm.swap _ _ _)

/-- The order of the set. -/
def Sorted (q : List Task) : Prop := q.Pairwise (fun a b => a.lt b = true)

theorem insert_sorted {t : Task} (q : List Task) (h : t.id ∉ q.map (·.id)) (hs : Sorted q) :
    Sorted (insert t q) := by
  induction q with
  | nil => exact List.pairwise_singleton _ _
  | cons x q ih =>
    have h' := h
    simp only [List.map_cons, List.mem_cons, not_or] at h
    have hp := List.pairwise_cons.1 hs
    simp only [insert]
    split
    · rename_i h1
      refine List.pairwise_cons.2 ⟨fun y hy => ?_, hs⟩
      rcases List.mem_cons.1 hy with rfl | hy
      · exact h1
      · exact lt_trans h1 (hp.1 y hy)
    · rename_i h1
      have hx := lt_of_id_ne h.1 (by simpa using h1)
      rw [if_pos hx]
      refine List.pairwise_cons.2 ⟨fun y hy => ?_, ih h.2 hp.2⟩
      rcases (mem_insert q h.2 y).1 hy with rfl | hy
      · exact hx
      · exact hp.1 y hy

theorem cancel_sublist (k : Nat) (q : List Task) : (cancel k q).Sublist q := by
  induction q with
  | nil => exact List.Sublist.refl _
  | cons x q ih =>
    simp only [cancel]
    split
    · exact List.sublist_cons_self _ _
    · exact ih.cons_cons x

theorem mem_cancel (k : Nat) (q : List Task) (hn : (q.map (·.id)).Nodup) (y : Task) :
    y ∈ cancel k q ↔ y ∈ q ∧ y.id ≠ k := by
  induction q with
  | nil => simp [cancel]
  | cons x q ih =>
    simp only [List.map_cons, List.nodup_cons] at hn
    simp only [cancel]
    split
    · rename_i hx
      subst hx
      constructor
      · intro hy
        exact ⟨List.mem_cons_of_mem _ hy, fun e => hn.1 (e ▸ List.mem_map_of_mem hy)⟩
      · rintro ⟨hy, hne⟩
        rcases List.mem_cons.1 hy with rfl | hy
        · exact absurd rfl hne
        · exact hy
    · rename_i hx
      rw [List.mem_cons, ih hn.2, List.mem_cons]
      constructor
      · rintro (rfl | ⟨hy, hne⟩)
        · exact ⟨Or.inl rfl, hx⟩
        · exact ⟨Or.inr hy, hne⟩
      · rintro ⟨rfl | hy, hne⟩
        · exact Or.inl rfl
        · exact Or.inr ⟨hy, hne⟩

/-! ### Identifiers -/

theorem nextId_fresh {used : List Nat} : ∀ {fuel c id c' : Nat}, nextId used fuel c = some (id, c') →
    id ≠ 0 ∧ id ∉ used := by
  intro fuel
  induction fuel with
  | zero => intro c id c' h; cases h
  | succ fuel ih =>
    intro c id c' h
    simp only [nextId] at h
    split at h
    · exact ih h
    · rename_i hc
      cases h
      exact ⟨fun h => hc (Or.inl h), fun h => hc (Or.inr h)⟩

/-- The counter after `n` calls. -/
def counterAfter (n : Nat) : Nat := if n = 0 then 0 else (n + 1) % idLimit

theorem nextId_hit {used : List Nat} {n : Nat} (hu : ∀ k ∈ used, k ≤ n) (fuel : Nat) :
    nextId used (fuel + 1) (n + 1) = some (n + 1, counterAfter (n + 1)) := by
  have hnot : ¬ (n + 1 = 0 ∨ n + 1 ∈ used) := by
    rintro (h | h)
    · omega
    · have := hu _ h; omega
  rw [nextId, if_neg hnot]
  simp [counterAfter]

theorem nextId_first {used : List Nat} {n : Nat} (hn : n + 1 < idLimit) (hu : ∀ k ∈ used, k ≤ n) :
    nextId used idLimit (counterAfter n) = some (n + 1, counterAfter (n + 1)) := by
  have key : ∀ fuel, nextId used (fuel + 1 + 1) (counterAfter n) = some (n + 1, counterAfter (n + 1)) := by
    intro fuel
    by_cases h0 : n = 0
    · subst h0
      rw [counterAfter, if_pos rfl, nextId, if_pos (Or.inl rfl)]
      exact nextId_hit hu fuel
    · rw [counterAfter, if_neg h0, Nat.mod_eq_of_lt hn]
      exact nextId_hit hu (fuel + 1)
  have hf : idLimit = (idLimit - 2) + 1 + 1 := by omega
  have := key (idLimit - 2)
  rw [← hf] at this
  exact this

/-! ### The invariant -/

/-- The task whose callback is running and will be inserted again. -/
def M.again (m : M) : List Task :=
  match m.phase with
  | .callback _ t => if t.period.isSome then [t] else []
  | _ => []

/-- A task that was asked for. -/
def Asked (m : M) (t : Task) : Prop :=
  (t.period = none → t ∈ m.requests) ∧
  ∃ r ∈ m.requests, r.serial = t.serial ∧ r.id = t.id ∧ r.period = t.period

/-- Callbacks of one-shot tasks. -/
def M.oneShots (m : M) : List Task := (m.log.map (·.task)).filter (fun t => t.period.isNone)

/-- The task was not cancelled since it was scheduled. -/
def NotCancelled (m : M) (r : Task) : Prop := ∀ x ∈ m.cancelled, x.1 = r.id → x.2 ≤ r.serial

/-- The invariant. -/
structure Inv (m : M) : Prop where
  serials : m.requests.map (·.serial) = List.range' 0 m.requests.length
  sorted : Sorted m.queue
  nodup : ((m.queue ++ m.again).map (·.serial)).Nodup
  asked : ∀ t ∈ m.queue ++ m.again, Asked m t
  logAsked : ∀ e ∈ m.log, Asked m e.task
  once : (m.oneShots.map (·.serial)).Nodup
  gone : ∀ t ∈ m.oneShots, t.serial ∉ m.queue.map (·.serial)
  kept : ∀ r ∈ m.requests, r.period = none → NotCancelled m r → r ∈ m.queue ∨ r ∈ m.oneShots

theorem inv_initial (c : Int) : Inv (initial c) := by
  constructor <;> simp [initial, M.again, M.oneShots, Sorted]

theorem Inv.lt {m : M} (h : Inv m) {t : Task} (ha : Asked m t) : t.serial < m.requests.length := by
  obtain ⟨r, hr, e, -⟩ := ha.2
  have : r.serial ∈ m.requests.map (·.serial) := List.mem_map_of_mem hr
  rw [h.serials, List.mem_range'_1] at this
  omega

/-- The requests are told apart by their serial numbers. -/
theorem Inv.request_eq {m : M} (h : Inv m) {r r' : Task} (h1 : r ∈ m.requests) (h2 : r' ∈ m.requests)
    (e : r.serial = r'.serial) : r = r' := by
  have hn : (m.requests.map (·.serial)).Nodup := by
    rw [h.serials]; exact List.nodup_range'
  generalize m.requests = l at h1 h2 hn
  induction l with
  | nil => cases h1
  | cons x l ih =>
    simp only [List.map_cons, List.nodup_cons] at hn
    rcases List.mem_cons.1 h1 with g1 | g1 <;> rcases List.mem_cons.1 h2 with g2 | g2
    · rw [g1, g2]
    · rw [g1] at e; exact absurd (e ▸ List.mem_map_of_mem g2) hn.1
    · rw [g2] at e; exact absurd (e.symm ▸ List.mem_map_of_mem g1) hn.1
    · exact ih g1 g2 hn.2

theorem Asked.mono {m m' : M} {t : Task} (h : Asked m t) (hr : ∃ x, m'.requests = m.requests ++ x) :
    Asked m' t := by
  obtain ⟨x, hr⟩ := hr
  refine ⟨fun hp => by rw [hr]; exact List.mem_append_left _ (h.1 hp), ?_⟩
  obtain ⟨r, h1, h2⟩ := h.2
  exact ⟨r, by rw [hr]; exact List.mem_append_left _ h1, h2⟩

/-- Requests only grow. -/
theorem step_requests {m m' : M} {a : Action} (h : step m a = some m') : ∃ x, m'.requests = m.requests ++ x := by
  cases a <;> simp only [step] at h
  case wait => cases h; exact ⟨[], (List.append_nil _).symm⟩
  case schedule =>
    split at h
    · cases h
    · cases h; exact ⟨_, rfl⟩
  case cancel => cases h; exact ⟨[], (List.append_nil _).symm⟩
  case run =>
    split at h
    · cases h; exact ⟨[], (List.append_nil _).symm⟩
    · cases h
  case pick =>
    split at h
    · split at h
      · cases h
      · cases h; exact ⟨[], (List.append_nil _).symm⟩
    · cases h
  case finish =>
    split at h
    · split at h <;> (cases h; exact ⟨[], (List.append_nil _).symm⟩)
    · cases h
  case done =>
    split at h
    · cases h; exact ⟨[], (List.append_nil _).symm⟩
    · split at h
      · cases h; exact ⟨[], (List.append_nil _).symm⟩
      · cases h
    · cases h

theorem nodup_sub {q q' r : List Task} (hn : ((q ++ r).map (·.serial)).Nodup) (hs : q'.Sublist q) :
    ((q' ++ r).map (·.serial)).Nodup :=
  hn.sublist ((hs.append (List.Sublist.refl r)).map _)

/-- The task is inserted or an equivalent one is kept. -/
theorem insert_cases (t : Task) (q : List Task) : (insert t q).Perm (t :: q) ∨ insert t q = q := by
  induction q with
  | nil => exact Or.inl (List.Perm.refl _)
  | cons x q ih =>
    simp only [insert]
    split
    · exact Or.inl (List.Perm.refl _)
    · split
      · rcases ih with ih | ih
        · exact Or.inl ((ih.cons x).trans (List.Perm.swap _ _ _))
        · exact Or.inr (by rw [ih])
      · exact Or.inr rfl

theorem insert_subset (t : Task) (q : List Task) : ∀ y ∈ insert t q, y = t ∨ y ∈ q := by
  intro y hy
  rcases insert_cases t q with h | h
  · exact List.mem_cons.1 (h.mem_iff.1 hy)
  · rw [h] at hy; exact Or.inr hy

theorem subset_insert (t : Task) (q : List Task) : ∀ y ∈ q, y ∈ insert t q := by
  intro y hy
  rcases insert_cases t q with h | h
  · exact h.mem_iff.2 (List.mem_cons_of_mem _ hy)
  · rw [h]; exact hy

theorem insert_sorted' {t : Task} (q : List Task) (hs : Sorted q) : Sorted (insert t q) := by
  induction q with
  | nil => exact List.pairwise_singleton _ _
  | cons x q ih =>
    have hp := List.pairwise_cons.1 hs
    simp only [insert]
    split
    · rename_i h1
      refine List.pairwise_cons.2 ⟨fun y hy => ?_, hs⟩
      rcases List.mem_cons.1 hy with rfl | hy
      · exact h1
      · exact lt_trans h1 (hp.1 y hy)
    · split
      · rename_i hx
        refine List.pairwise_cons.2 ⟨fun y hy => ?_, ih hp.2⟩
        rcases insert_subset t q y hy with rfl | hy
        · exact hx
        · exact hp.1 y hy
      · exact hs

theorem mem_cancel_of (k : Nat) (q : List Task) {y : Task} (hy : y ∈ q) (hk : y.id ≠ k) : y ∈ cancel k q := by
  induction q with
  | nil => cases hy
  | cons x q ih =>
    simp only [cancel]
    split
    · rename_i hx
      rcases List.mem_cons.1 hy with rfl | hy
      · exact absurd hx hk
      · exact hy
    · rcases List.mem_cons.1 hy with rfl | hy
      · exact List.mem_cons_self
      · exact List.mem_cons_of_mem _ (ih hy)

theorem inv_step {m m' : M} {a : Action} (hi : Inv m) (h : step m a = some m') : Inv m' := by
  obtain ⟨x, hreq⟩ := step_requests h
  cases a <;> simp only [step] at h
  case wait => cases h; exact ⟨hi.serials, hi.sorted, hi.nodup, hi.asked, hi.logAsked, hi.once, hi.gone, hi.kept⟩
  case schedule delay period =>
    split at h
    · cases h
    rename_i id c' hid
    cases h
    have hfresh : (⟨m.requests.length, id, m.clock + delay, period⟩ : Task).id ∉ m.queue.map (·.id) :=
      (nextId_fresh hid).2
    have hser : ∀ t ∈ m.queue ++ m.again, t.serial < m.requests.length := fun t ht => hi.lt (hi.asked t ht)
    have hone : ∀ t ∈ m.oneShots, t.serial < m.requests.length := by
      intro t ht
      simp only [M.oneShots, List.mem_filter, List.mem_map] at ht
      obtain ⟨⟨e, he, rfl⟩, -⟩ := ht
      exact hi.lt (hi.logAsked e he)
    refine ⟨?_, insert_sorted _ hfresh hi.sorted, ?_, ?_, ?_, hi.once, ?_, ?_⟩
    · simp only [List.map_append, hi.serials, List.map_cons, List.map_nil, List.length_append, List.length_cons,
        List.length_nil]
      rw [List.range'_concat]
      simp
    · have hp : ((insert ⟨m.requests.length, id, m.clock + delay, period⟩ m.queue ++ m.again).map (·.serial)).Perm
          (m.requests.length :: (m.queue ++ m.again).map (·.serial)) :=
        ((insert_perm m.queue hfresh).append_right m.again).map _
      refine hp.symm.nodup ?_
      refine List.nodup_cons.2 ⟨?_, hi.nodup⟩
      intro hk
      obtain ⟨t, ht, e⟩ := List.mem_map.1 hk
      have := hser t ht
      omega
    · intro t ht
      rcases List.mem_append.1 ht with ht | ht
      · rcases (mem_insert _ hfresh t).1 ht with rfl | ht
        · exact ⟨fun _ => List.mem_append_right _ (List.mem_singleton.2 rfl),
            _, List.mem_append_right _ (List.mem_singleton.2 rfl), rfl, rfl, rfl⟩
        · exact (hi.asked t (List.mem_append_left _ ht)).mono ⟨_, rfl⟩
      · exact (hi.asked t (List.mem_append_right _ ht)).mono ⟨_, rfl⟩
    · exact fun e he => (hi.logAsked e he).mono ⟨_, rfl⟩
    · intro t ht hk
      obtain ⟨y, hy, e⟩ := List.mem_map.1 hk
      rcases (mem_insert _ hfresh y).1 hy with rfl | hy
      · have h1 : m.requests.length = t.serial := e
        have := hone t ht; omega
      · exact hi.gone t ht (List.mem_map.2 ⟨y, hy, e⟩)
    · intro r hr hp hc
      rcases List.mem_append.1 hr with hr | hr
      · rcases hi.kept r hr hp hc with h | h
        · exact Or.inl ((mem_insert _ hfresh r).2 (Or.inr h))
        · exact Or.inr h
      · rw [List.mem_singleton] at hr
        exact Or.inl ((mem_insert _ hfresh r).2 (Or.inl hr))
  case cancel k =>
    cases h
    have hsub := cancel_sublist k m.queue
    refine ⟨hi.serials, hi.sorted.sublist hsub, nodup_sub hi.nodup hsub, ?_, hi.logAsked, hi.once, ?_, ?_⟩
    · intro t ht
      rcases List.mem_append.1 ht with ht | ht
      · exact hi.asked t (List.mem_append_left _ (hsub.subset ht))
      · exact hi.asked t (List.mem_append_right _ ht)
    · intro t ht hk
      obtain ⟨y, hy, e⟩ := List.mem_map.1 hk
      exact hi.gone t ht (List.mem_map.2 ⟨y, hsub.subset hy, e⟩)
    · intro r hr hp hc
      have hne : r.id ≠ k := by
        intro e
        have h1 : m.requests.length ≤ r.serial :=
          hc (k, m.requests.length) (List.mem_append_right _ (List.mem_singleton.2 rfl)) e.symm
        have : r.serial ∈ m.requests.map (·.serial) := List.mem_map_of_mem hr
        rw [hi.serials, List.mem_range'_1] at this
        omega
      rcases hi.kept r hr hp (fun x hx => hc x (List.mem_append_left _ hx)) with h | h
      · exact Or.inl (mem_cancel_of k _ h hne)
      · exact Or.inr h
  case run =>
    split at h
    · rename_i hph
      cases h
      have ha : m.again = [] := by simp [M.again, hph]
      have hn := hi.nodup
      have has := hi.asked
      rw [ha] at hn has
      exact ⟨hi.serials, hi.sorted, hn, has, hi.logAsked, hi.once, hi.gone, hi.kept⟩
    · cases h
  case pick =>
    split at h
    rotate_left
    · cases h
    rename_i now t q hph hqe
    split at h
    · cases h
    cases h
    have ha : m.again = [] := by simp [M.again, hph]
    have hn := hi.nodup
    have has := hi.asked
    rw [ha, List.append_nil, hqe] at hn has
    have hs := hi.sorted
    rw [hqe] at hs
    simp only [List.map_cons, List.nodup_cons] at hn
    have hone : M.oneShots { m with queue := q, phase := .callback now t, log := m.log ++ [⟨t, m.clock⟩] } =
        m.oneShots ++ (if t.period.isNone then [t] else []) := by
      simp only [M.oneShots, List.map_append, List.filter_append, List.map_cons, List.map_nil]
      congr 1
      cases hp : t.period <;> simp [hp]
    refine ⟨hi.serials, (List.pairwise_cons.1 hs).2, ?_, ?_, ?_, ?_, ?_, ?_⟩
    · simp only [M.again]
      split
      · rw [List.map_append, List.map_cons, List.map_nil]
        refine List.nodup_append.2 ⟨hn.2, by simp, ?_⟩
        intro x hx y hy e
        rw [List.mem_singleton] at hy
        subst hy; subst e
        exact hn.1 hx
      · rw [List.append_nil]; exact hn.2
    · intro y hy
      simp only [M.again] at hy
      rcases List.mem_append.1 hy with hy | hy
      · exact has y (List.mem_cons_of_mem _ hy)
      · split at hy
        · rw [List.mem_singleton] at hy; subst hy; exact has y List.mem_cons_self
        · cases hy
    · intro e he
      rcases List.mem_append.1 he with he | he
      · exact hi.logAsked e he
      · rw [List.mem_singleton] at he; subst he; exact has t List.mem_cons_self
    · rw [hone, List.map_append]
      refine List.nodup_append.2 ⟨hi.once, by split <;> simp, ?_⟩
      intro x hx y hy e
      subst e
      have hy : x = t.serial := by
        split at hy
        · simpa using hy
        · simp at hy
      obtain ⟨z, hz, hz2⟩ := List.mem_map.1 hx
      refine hi.gone z hz ?_
      rw [hqe, hz2, hy]
      exact List.mem_map_of_mem List.mem_cons_self
    · rw [hone]
      intro y hy hk
      rcases List.mem_append.1 hy with hy | hy
      · refine hi.gone y hy ?_
        rw [hqe, List.map_cons]
        exact List.mem_cons_of_mem _ hk
      · have hy : y = t := by
          split at hy
          · simpa using hy
          · simp at hy
        subst hy
        exact hn.1 hk
    · rw [hone]
      intro r hr hp hc
      rcases hi.kept r hr hp hc with h | h
      · rw [hqe] at h
        rcases List.mem_cons.1 h with rfl | h
        · refine Or.inr (List.mem_append_right _ ?_)
          simp [hp]
        · exact Or.inl h
      · exact Or.inr (List.mem_append_left _ h)
  case finish =>
    split at h
    rotate_left
    · cases h
    rename_i now t hph
    split at h
    · rename_i hp
      cases h
      have ha : m.again = [] := by simp [M.again, hph, hp]
      have hn := hi.nodup
      have has := hi.asked
      rw [ha] at hn has
      exact ⟨hi.serials, hi.sorted, hn, has, hi.logAsked, hi.once, hi.gone, hi.kept⟩
    · rename_i p hp
      cases h
      have ha : m.again = [t] := by simp [M.again, hph, hp]
      have hn := hi.nodup
      have has := hi.asked
      rw [ha, List.map_append, List.map_cons, List.map_nil] at hn
      rw [ha] at has
      obtain ⟨n1, -, n3⟩ := List.nodup_append.1 hn
      have hfresh : t.serial ∉ m.queue.map (·.serial) :=
        fun hk => n3 _ hk _ (List.mem_singleton.2 rfl) rfl
      have hat := has t (List.mem_append_right _ (List.mem_singleton.2 rfl))
      refine ⟨hi.serials, insert_sorted' _ hi.sorted, ?_, ?_, hi.logAsked, hi.once, ?_, ?_⟩
      · simp only [M.again, List.append_nil]
        rcases insert_cases { t with time := now + p } m.queue with hx | hx
        · refine (hx.map (·.serial)).symm.nodup ?_
          rw [List.map_cons]
          exact List.nodup_cons.2 ⟨hfresh, n1⟩
        · rw [hx]; exact n1
      · intro y hy
        simp only [M.again, List.append_nil] at hy
        rcases insert_subset _ _ y hy with rfl | hy
        · exact ⟨fun h => absurd (hp.symm.trans h) nofun, hat.2⟩
        · exact has y (List.mem_append_left _ hy)
      · intro y hy hk
        obtain ⟨z, hz, e⟩ := List.mem_map.1 hk
        rcases insert_subset _ _ z hz with rfl | hz
        · -- a one-shot and a periodic task cannot be the same
          simp only [M.oneShots, List.mem_filter, List.mem_map] at hy
          obtain ⟨⟨ev, he, rfl⟩, hy2⟩ := hy
          obtain ⟨r1, hr1, e1, -, f1⟩ := (hi.logAsked ev he).2
          obtain ⟨r2, hr2, e2, -, f2⟩ := hat.2
          have hid : t.serial = ev.task.serial := e
          have := hi.request_eq hr1 hr2 (by rw [e1, e2, hid])
          rw [← f1, this, f2, hp] at hy2
          cases hy2
        · exact hi.gone y hy (List.mem_map.2 ⟨z, hz, e⟩)
      · intro r hr hp' hc
        rcases hi.kept r hr hp' hc with h | h
        · exact Or.inl (subset_insert _ _ r h)
        · exact Or.inr h
  case done =>
    have hph : ∃ now, m.phase = .loop now ∧ m' = { m with phase := .idle } := by
      split at h
      · rename_i now hp _; cases h; exact ⟨now, hp, rfl⟩
      · rename_i now t q hp _
        split at h
        · cases h; exact ⟨now, hp, rfl⟩
        · cases h
      · cases h
    obtain ⟨now, hph, rfl⟩ := hph
    have ha : m.again = [] := by simp [M.again, hph]
    have hn := hi.nodup
    have has := hi.asked
    rw [ha] at hn has
    exact ⟨hi.serials, hi.sorted, hn, has, hi.logAsked, hi.once, hi.gone, hi.kept⟩

theorem runs_invariant {P : M → Prop} (hs : ∀ m m' a, P m → step m a = some m' → P m') (as : List Action) :
    ∀ {m m' : M}, P m → runs as m = some m' → P m' := by
  induction as with
  | nil => intro m m' h0 h; cases h; exact h0
  | cons a as ih =>
    intro m m' h0 h
    simp only [runs] at h
    split at h
    · cases h
    · rename_i m1 h1
      exact ih (hs _ _ _ h0 h1) h

theorem inv_of_runs {c : Int} {as : List Action} {m : M} (h : runs as (initial c) = some m) : Inv m :=
  runs_invariant (fun _ _ _ => inv_step) as (inv_initial c) h

theorem runs_requests (as : List Action) : ∀ {m m' : M}, runs as m = some m' → ∃ x, m'.requests = m.requests ++ x := by
  induction as with
  | nil => intro m m' h; cases h; exact ⟨[], (List.append_nil _).symm⟩
  | cons a as ih =>
    intro m m' h
    simp only [runs] at h
    split at h
    · cases h
    · rename_i m1 h1
      obtain ⟨x, hx⟩ := step_requests h1
      obtain ⟨y, hy⟩ := ih h
      exact ⟨x ++ y, by rw [hy, hx, List.append_assoc]⟩

/-! ### Identifiers before they wrap around -/

/-- The identifiers are the serial numbers plus one. -/
structure Ids (m : M) : Prop where
  counter : m.counter = counterAfter m.requests.length
  ids : ∀ r ∈ m.requests, r.id = r.serial + 1

theorem Ids.of_asked {m : M} (hd : Ids m) {t : Task} (h : Asked m t) : t.id = t.serial + 1 := by
  obtain ⟨r, h1, h2, h3, -⟩ := h.2
  rw [← h3, ← h2, hd.ids r h1]

theorem ids_step {m m' : M} {a : Action} (hi : Inv m) (hd : Ids m) (h : step m a = some m')
    (hb : m'.requests.length < idLimit) : Ids m' := by
  by_cases hs : ∃ delay period, a = .schedule delay period
  · obtain ⟨delay, period, rfl⟩ := hs
    have hu : ∀ k ∈ m.queue.map (·.id), k ≤ m.requests.length := by
      intro k hk
      obtain ⟨t, ht, rfl⟩ := List.mem_map.1 hk
      have ha := hi.asked t (List.mem_append_left _ ht)
      have := hi.lt ha
      rw [hd.of_asked ha]; omega
    simp only [step] at h
    split at h
    · cases h
    · rename_i id c' hn
      cases h
      have hlen : m.requests.length + 1 < idLimit := by simpa using hb
      rw [hd.counter, nextId_first hlen hu] at hn
      simp only [Option.some.injEq, Prod.mk.injEq] at hn
      obtain ⟨rfl, rfl⟩ := hn
      refine ⟨by simp, fun r hr => ?_⟩
      rcases List.mem_append.1 hr with hr | hr
      · exact hd.ids r hr
      · rw [List.mem_singleton] at hr; subst hr; rfl
  · have : m'.counter = m.counter ∧ m'.requests = m.requests := by
      cases a <;> simp only [step] at h
      case wait => cases h; exact ⟨rfl, rfl⟩
      case schedule delay period => exact absurd ⟨delay, period, rfl⟩ hs
      case cancel => cases h; exact ⟨rfl, rfl⟩
      case run =>
        split at h
        · cases h; exact ⟨rfl, rfl⟩
        · cases h
      case pick =>
        split at h
        · split at h
          · cases h
          · cases h; exact ⟨rfl, rfl⟩
        · cases h
      case finish =>
        split at h
        · split at h <;> (cases h; exact ⟨rfl, rfl⟩)
        · cases h
      case done =>
        split at h
        · cases h; exact ⟨rfl, rfl⟩
        · split at h
          · cases h; exact ⟨rfl, rfl⟩
          · cases h
        · cases h
    obtain ⟨h1, h2⟩ := this
    exact ⟨by rw [h1, h2]; exact hd.counter, by rw [h2]; exact hd.ids⟩

theorem ids_runs (as : List Action) : ∀ {m m' : M}, Inv m → Ids m → runs as m = some m' →
    m'.requests.length < idLimit → Ids m' := by
  induction as with
  | nil => intro m m' hi hd h _; cases h; exact hd
  | cons a as ih =>
    intro m m' hi hd h hb
    simp only [runs] at h
    split at h
    · cases h
    · rename_i m1 h1
      obtain ⟨y, hy⟩ := runs_requests as h
      refine ih (inv_step hi h1) (ids_step hi hd h1 ?_) h hb
      rw [hy, List.length_append] at hb
      omega

theorem ids_of_runs {c : Int} {as : List Action} {m : M} (h : runs as (initial c) = some m)
    (hb : m.requests.length < idLimit) : Ids m :=
  ids_runs as (inv_initial c) ⟨rfl, fun _ hr => absurd hr List.not_mem_nil⟩ h hb

end Verif.Task
