import Verif.Async.Model
import Verif.Conn.Lemmas
/-! Invariants of the task scheduler. -/

namespace Verif.Async
open Verif.Conn (Table find erase searchUnused keys Sound mem_keys find_mem mem_find mem_erase sound_erase
  sound_cons find_none_iff search_some search_none tried tried_range tried_covers length_ge)

/-- The invocations that have happened or are bound to happen next. -/
def hist (m : M) : List Event :=
  m.log ++ (match m.phase with | .picked e => [e] | _ => [])

structure Inv (m : M) : Prop where
  keys : Sound m.byId 1 maxTaskId
  ids : ∀ e ∈ m.byId, e.2.id = e.1
  last : m.last ≤ maxTaskId
  sorted : m.queue.Pairwise (fun a b => a.lt b = true)
  agree : ∀ t, t ∈ m.queue ↔ (t.id, t) ∈ m.byId
  serial : ∀ t ∈ m.queue, t.serial < m.count
  serialInj : ∀ t ∈ m.queue, ∀ t' ∈ m.queue, t.serial = t'.serial → t = t'
  users : ∀ t ∈ m.queue, (t.user, t.id) ∈ m.byUser
  hserial : ∀ e ∈ hist m, e.serial < m.count
  oneShot : ∀ e ∈ hist m, e.oneShot = true → ∀ t ∈ m.queue, t.serial ≠ e.serial
  once : (((hist m).filter (·.oneShot)).map (·.serial)).Nodup
  kind : ∀ e ∈ hist m, ∀ t ∈ m.queue, t.serial = e.serial → e.oneShot = t.period.isNone
  due : ∀ e ∈ hist m, e.due < e.at_ ∧ e.at_ ≤ m.now
  dueSorted : (hist m).Pairwise (fun a b => a.due ≤ b.due)
  dueQueue : ∀ e ∈ hist m, ∀ t ∈ m.queue, e.due ≤ t.time

theorem lt_trans {a b c : Task} (h1 : a.lt b = true) (h2 : b.lt c = true) : a.lt c = true := by
  simp only [Task.lt, Bool.or_eq_true, Bool.and_eq_true, decide_eq_true_eq] at *
  omega

theorem lt_total {a b : Task} (h : a.id ≠ b.id) : a.lt b = true ∨ b.lt a = true := by
  simp only [Task.lt, Bool.or_eq_true, Bool.and_eq_true, decide_eq_true_eq]
  omega

theorem lt_irrefl (a : Task) : a.lt a = false := by simp [Task.lt]

theorem lt_time {a b : Task} (h : a.lt b = true) : a.time ≤ b.time := by
  simp only [Task.lt, Bool.or_eq_true, Bool.and_eq_true, decide_eq_true_eq] at h
  omega

theorem mem_insert (t y : Task) : ∀ (q : List Task), (∀ x ∈ q, x.id ≠ t.id) →
    (y ∈ insert t q ↔ y = t ∨ y ∈ q) := by
  intro q
  induction q with
  | nil => intro _; simp [insert]
  | cons x q ih =>
    intro h
    have ih' := ih (fun z hz => h z (List.mem_cons_of_mem _ hz))
    have hx := h x List.mem_cons_self
    simp only [insert]
    split
    · simp
    · rename_i h1
      rw [if_pos]
      · simp only [List.mem_cons, ih']
        grind
      · rcases lt_total (fun e => hx e.symm : t.id ≠ x.id) with h2 | h2
        · exact absurd h2 h1
        · exact h2

theorem sorted_insert (t : Task) : ∀ (q : List Task), (∀ x ∈ q, x.id ≠ t.id) →
    q.Pairwise (fun a b => a.lt b = true) → (insert t q).Pairwise (fun a b => a.lt b = true) := by
  intro q
  induction q with
  | nil => intro _ _; simp [insert]
  | cons x q ih =>
    intro h hs
    have h' : ∀ z ∈ q, z.id ≠ t.id := fun z hz => h z (List.mem_cons_of_mem _ hz)
    have hx := h x List.mem_cons_self
    rw [List.pairwise_cons] at hs
    simp only [insert]
    split
    · rename_i h1
      refine List.pairwise_cons.mpr ⟨?_, List.pairwise_cons.mpr hs⟩
      intro z hz
      rcases List.mem_cons.mp hz with rfl | hz
      · exact h1
      · exact lt_trans h1 (hs.1 z hz)
    · rename_i h1
      have h2 : x.lt t = true := by
        rcases lt_total (fun e => hx e.symm : t.id ≠ x.id) with h2 | h2
        · exact absurd h2 h1
        · exact h2
      rw [if_pos h2]
      refine List.pairwise_cons.mpr ⟨?_, ih h' hs.2⟩
      intro z hz
      rcases (mem_insert t z q h').mp hz with rfl | hz
      · exact h2
      · exact hs.1 z hz

theorem queue_inj {m : M} (hk : Sound m.byId 1 maxTaskId)
    (ha : ∀ t, t ∈ m.queue ↔ (t.id, t) ∈ m.byId) {t t' : Task} (h : t ∈ m.queue) (h' : t' ∈ m.queue)
    (hid : t.id = t'.id) : t = t' := by
  have h1 := mem_find _ hk.nodup _ _ ((ha t).mp h)
  have h2 := mem_find _ hk.nodup _ _ ((ha t').mp h')
  rw [hid, h2] at h1
  exact (Option.some.inj h1).symm

theorem mem_remove {q : List Task} (hinj : ∀ a ∈ q, ∀ b ∈ q, a.id = b.id → a = b) {t : Task} (ht : t ∈ q)
    (y : Task) : y ∈ remove t q ↔ y ∈ q ∧ y.id ≠ t.id := by
  simp only [remove, List.mem_filter, Bool.or_eq_true]
  constructor
  · rintro ⟨h1, h2⟩
    refine ⟨h1, fun he => ?_⟩
    have := hinj y h1 t ht he
    subst this
    simp [lt_irrefl] at h2
  · rintro ⟨h1, h2⟩
    exact ⟨h1, lt_total h2⟩

theorem inv_init : Inv M.init := by
  refine ⟨⟨?_, ?_⟩, ?_, ?_, ?_, ?_, ?_, ?_, ?_, ?_, ?_, ?_, ?_, ?_, ?_, ?_⟩ <;>
    simp [M.init, hist, Conn.keys, maxTaskId]

/-- Removing tasks from the queue and the map keeps the invariant. -/
theorem inv_shrink {m m' : M} (hi : Inv m) (hk : Sound m'.byId 1 maxTaskId)
    (hb : ∀ e ∈ m'.byId, e ∈ m.byId)
    (hsub : ∀ t ∈ m'.queue, t ∈ m.queue) (hsort : m'.queue.Pairwise (fun a b => a.lt b = true))
    (ha : ∀ t, t ∈ m'.queue ↔ (t.id, t) ∈ m'.byId) (hu : ∀ t ∈ m'.queue, (t.user, t.id) ∈ m'.byUser)
    (hlast : m'.last = m.last) (hc : m'.count = m.count) (hh : hist m' = hist m)
    (hn : m.now ≤ m'.now) : Inv m' := by
  refine ⟨hk, ?_, by rw [hlast]; exact hi.last, hsort, ha, ?_, ?_, hu, ?_, ?_, ?_, ?_, ?_, ?_, ?_⟩
  · intro e he; exact hi.ids e (hb e he)
  · intro t ht; rw [hc]; exact hi.serial t (hsub t ht)
  · intro t ht t' ht'; exact hi.serialInj t (hsub t ht) t' (hsub t' ht')
  · intro e he; rw [hh] at he; rw [hc]; exact hi.hserial e he
  · intro e he ho t ht; rw [hh] at he; exact hi.oneShot e he ho t (hsub t ht)
  · rw [hh]; exact hi.once
  · intro e he t ht; rw [hh] at he; exact hi.kind e he t (hsub t ht)
  · intro e he; rw [hh] at he; have := hi.due e he; omega
  · rw [hh]; exact hi.dueSorted
  · intro e he t ht; rw [hh] at he; exact hi.dueQueue e he t (hsub t ht)

theorem inv_queue_inj {m : M} (hi : Inv m) : ∀ a ∈ m.queue, ∀ b ∈ m.queue, a.id = b.id → a = b :=
  fun _ ha _ hb he => queue_inj hi.keys hi.agree ha hb he

theorem cancelLocked_spec {m : M} (hi : Inv m) (i : Nat) :
    let m' := (cancelLocked m i).2
    Inv m' ∧ (∀ t, t ∈ m'.queue ↔ t ∈ m.queue ∧ t.id ≠ i) ∧
    m'.byUser = m.byUser ∧ m'.phase = m.phase ∧ m'.log = m.log ∧ m'.now = m.now ∧
    m'.count = m.count ∧ m'.last = m.last ∧ m'.running = m.running ∧
    ((cancelLocked m i).1 = true ↔ ∃ t ∈ m.queue, t.id = i) := by
  unfold cancelLocked
  cases hf : find m.byId i with
  | none =>
    have hno : ∀ t ∈ m.queue, t.id ≠ i := by
      intro t ht he
      have := mem_keys ((hi.agree t).mp ht)
      rw [he] at this
      exact ((find_none_iff _ _).mp hf) this
    refine ⟨hi, ?_, rfl, rfl, rfl, rfl, rfl, rfl, rfl, ?_⟩
    · intro t; exact ⟨fun h => ⟨h, hno t h⟩, fun h => h.1⟩
    · simp only [Bool.false_eq_true, false_iff]
      rintro ⟨t, ht, he⟩; exact hno t ht he
  | some t =>
    have hm := find_mem _ _ _ hf
    have hid : t.id = i := hi.ids _ hm
    have ht : t ∈ m.queue := (hi.agree t).mpr (by rw [hid]; exact hm)
    have hrem := fun y => mem_remove (inv_queue_inj hi) ht y
    refine ⟨?_, ?_, rfl, rfl, rfl, rfl, rfl, rfl, rfl, ?_⟩
    · apply inv_shrink hi (sound_erase _ _ _ _ hi.keys)
      · intro e he
        exact ((mem_erase m.byId i e.1 e.2).mp he).1
      · intro y hy; exact ((hrem y).mp hy).1
      · exact hi.sorted.filter _
      · intro y
        rw [hrem, mem_erase, hi.agree, hid]
      · intro y hy; exact hi.users y ((hrem y).mp hy).1
      · rfl
      · rfl
      · rfl
      · exact Nat.le_refl _
    · intro y; rw [hrem, hid]
    · simp only [true_iff]; exact ⟨t, ht, hid⟩

theorem foldCancel_spec : ∀ (ids : List Nat) {m : M}, Inv m →
    let m' := ids.foldl (fun m i => (cancelLocked m i).2) m
    Inv m' ∧ (∀ t, t ∈ m'.queue ↔ t ∈ m.queue ∧ t.id ∉ ids) ∧
    m'.byUser = m.byUser ∧ m'.phase = m.phase ∧ m'.log = m.log ∧ m'.now = m.now ∧
    m'.count = m.count ∧ m'.last = m.last ∧ m'.running = m.running := by
  intro ids
  induction ids with
  | nil => intro m hi; simp [hi]
  | cons i ids ih =>
    intro m hi
    obtain ⟨a1, a2, a3, a4, a5, a6, a7, a8, a9, -⟩ := cancelLocked_spec hi i
    obtain ⟨b1, b2, b3, b4, b5, b6, b7, b8, b9⟩ := ih a1
    simp only [List.foldl_cons]
    refine ⟨b1, ?_, by rw [b3, a3], by rw [b4, a4], by rw [b5, a5], by rw [b6, a6], by rw [b7, a7],
      by rw [b8, a8], by rw [b9, a9]⟩
    intro t
    rw [b2, a2]
    simp only [List.mem_cons, not_or]
    grind

theorem mem_idsOf (m : M) (u i : Nat) : i ∈ idsOf m u ↔ (u, i) ∈ m.byUser := by
  simp only [idsOf, List.mem_map, List.mem_filter, decide_eq_true_eq]
  constructor
  · rintro ⟨⟨a, b⟩, ⟨h1, h2⟩, h3⟩
    simp only at h2 h3
    subst h2 h3
    exact h1
  · intro h; exact ⟨(u, i), ⟨h, rfl⟩, rfl⟩

theorem cancelUser_spec {m : M} (hi : Inv m) (u : Nat) :
    let m' := (cancelUser m u).2
    Inv m' ∧ (∀ t, t ∈ m'.queue ↔ t ∈ m.queue ∧ (u, t.id) ∉ m.byUser) ∧
    (∀ e, e ∈ m'.byUser ↔ e ∈ m.byUser ∧ e.1 ≠ u) ∧
    m'.phase = m.phase ∧ m'.log = m.log ∧ m'.now = m.now ∧ m'.count = m.count ∧ m'.last = m.last := by
  obtain ⟨b1, b2, b3, b4, b5, b6, b7, b8, b9⟩ := foldCancel_spec (idsOf m u) hi
  simp only [cancelUser]
  have hbu : ∀ e, e ∈ (List.foldl (fun m i => (cancelLocked m i).2) m (idsOf m u)).byUser.filter
      (fun e => decide (e.1 ≠ u)) ↔ e ∈ m.byUser ∧ e.1 ≠ u := by
    intro e; rw [List.mem_filter, b3]; simp
  refine ⟨?_, ?_, hbu, b4, b5, b6, b7, b8⟩
  · refine inv_shrink b1 ?_ (fun e he => he) (fun t ht => ht) ?_ ?_ ?_ rfl rfl rfl (Nat.le_refl _)
    · exact b1.keys
    · exact b1.sorted
    · exact b1.agree
    · intro t ht
      rw [hbu]
      obtain ⟨h1, h2⟩ := (b2 t).mp ht
      have := hi.users t h1
      refine ⟨this, fun hu => h2 ?_⟩
      rw [mem_idsOf]
      simp only at hu
      rw [← hu]; exact this
  · intro t; rw [b2, mem_idsOf]

theorem schedule_spec {m : M} (hi : Inv m) (u d : Nat) (p : Option Nat) :
    (m.byId.length = maxTaskId ∧ schedule m u d p = some (0, m)) ∨
    ∃ i m', schedule m u d p = some (i, m') ∧ Inv m' ∧ 1 ≤ i ∧ i ≤ maxTaskId ∧
      (∀ t ∈ m.queue, t.id ≠ i) ∧
      (∀ t, t ∈ m'.queue ↔ t = ⟨m.count, i, u, m.now + d, p⟩ ∨ t ∈ m.queue) ∧
      m'.count = m.count + 1 ∧ m'.log = m.log ∧ m'.phase = m.phase ∧ m'.now = m.now ∧ m'.last = i ∧
      (∀ e, e ∈ m'.byUser ↔ e = (u, i) ∨ e ∈ m.byUser) := by
  unfold schedule
  by_cases hfull : m.byId.length = maxTaskId
  · exact Or.inl ⟨hfull, by simp [hfull]⟩
  right
  simp only [hfull, if_false]
  have hnext : 1 ≤ nextId m.last ∧ nextId m.last ≤ maxTaskId := by
    have := hi.last
    unfold nextId
    split
    · simp [maxTaskId]
    · simp only [maxTaskId] at *; omega
  cases hs : searchUnused m.byId 1 maxTaskId (nextId m.last) maxTaskId with
  | none =>
    exfalso
    have hall := search_none _ _ _ _ _ hs
    have h1 := length_ge m.byId 1 maxTaskId (by simp [maxTaskId]) (fun x hx1 hx2 => by
      obtain ⟨j, hj, rfl⟩ := tried_covers 1 maxTaskId _ x hnext.1 hnext.2 hx1 hx2
      have := hall j (by omega)
      rw [ne_eq, find_none_iff] at this
      simpa using this)
    have h2 := Conn.bound _ _ _ (by simp [maxTaskId]) hi.keys
    simp only [maxTaskId] at *
    omega
  | some i =>
    obtain ⟨hf, j, hj, hij, -⟩ := search_some _ _ _ _ _ _ hs
    have hr := tried_range 1 maxTaskId (by simp [maxTaskId]) j _ hnext.1 hnext.2
    rw [← hij] at hr
    have hnk := (find_none_iff _ _).mp hf
    have hne : ∀ t ∈ m.queue, t.id ≠ i := by
      intro t ht he
      have := mem_keys ((hi.agree t).mp ht)
      rw [he] at this
      exact hnk this
    have hins := fun y => mem_insert ⟨m.count, i, u, m.now + d, p⟩ y m.queue hne
    have hbu : ∀ e, e ∈ (if (u, i) ∈ m.byUser then m.byUser else (u, i) :: m.byUser) ↔
        e = (u, i) ∨ e ∈ m.byUser := by
      intro e
      split
      · rename_i h; constructor
        · exact Or.inr
        · rintro (rfl | h'); exacts [h, h']
      · simp
    refine ⟨i, _, rfl, ?_, hr.1, hr.2, hne, hins, rfl, rfl, rfl, rfl, rfl, hbu⟩
    refine ⟨sound_cons _ _ _ _ _ hi.keys hnk hr.1 hr.2, ?_, hr.2, sorted_insert _ _ hne hi.sorted,
      ?_, ?_, ?_, ?_, ?_, ?_, hi.once, ?_, hi.due, hi.dueSorted, ?_⟩
    · intro e he
      rcases List.mem_cons.mp he with rfl | he
      · rfl
      · exact hi.ids e he
    · intro t
      simp only [hins, List.mem_cons, Prod.mk.injEq]
      constructor
      · rintro (rfl | h)
        · exact Or.inl ⟨rfl, rfl⟩
        · exact Or.inr ((hi.agree t).mp h)
      · rintro (⟨-, h⟩ | h)
        · exact Or.inl h
        · exact Or.inr ((hi.agree t).mpr h)
    · intro t ht
      rcases (hins t).mp ht with rfl | ht
      · simp
      · have := hi.serial t ht; simp only; omega
    · intro t ht t' ht' he
      rcases (hins t).mp ht with rfl | ht <;> rcases (hins t').mp ht' with rfl | ht'
      · rfl
      · have := hi.serial t' ht'; simp only at he; omega
      · have := hi.serial t ht; simp only at he; omega
      · exact hi.serialInj t ht t' ht' he
    · intro t ht
      rw [hbu]
      rcases (hins t).mp ht with rfl | ht
      · exact Or.inl rfl
      · exact Or.inr (hi.users t ht)
    · intro e he
      have := hi.hserial e he
      simp only; omega
    · intro e he ho t ht
      rcases (hins t).mp ht with rfl | ht
      · have := hi.hserial e he
        simp only; omega
      · exact hi.oneShot e he ho t ht
    · intro e he t ht
      rcases (hins t).mp ht with rfl | ht
      · intro h
        have := hi.hserial e he
        simp only at h; omega
      · exact hi.kind e he t ht
    · intro e he t ht
      rcases (hins t).mp ht with rfl | ht
      · have := hi.due e he
        simp only; omega
      · exact hi.dueQueue e he t ht

/-- What `pick` does when the thread is idle: nothing, or take the least task. -/
theorem pick_spec {m : M} (hi : Inv m) (hidle : m.phase = .idle) :
    (pick m = m ∧ ∀ t ∈ m.queue, m.now ≤ t.time) ∨
    ∃ t ∈ m.queue, t.time < m.now ∧ (∀ y ∈ m.queue, y ≠ t → t.lt y = true) ∧
      (pick m).phase = .picked ⟨t.serial, t.time, m.now, t.period.isNone⟩ ∧
      (pick m).log = m.log ∧ (pick m).count = m.count ∧ (pick m).now = m.now ∧ (pick m).last = m.last ∧
      (∀ y, y ∈ (pick m).queue ↔ (y ∈ m.queue ∧ y ≠ t) ∨
        ∃ q, t.period = some q ∧ y = { t with time := t.time + q }) ∧
      (∀ e, e ∈ (pick m).byUser ↔ e ∈ m.byUser ∧ (t.period = none → e ≠ (t.user, t.id))) ∧
      Inv (pick m) := by
  cases hq : m.queue with
  | nil => left; simp [pick, hq]
  | cons t q =>
    have hs := hi.sorted
    rw [hq, List.pairwise_cons] at hs
    have hmem : t ∈ m.queue := by rw [hq]; exact List.mem_cons_self
    have hmin : ∀ y ∈ m.queue, y ≠ t → t.lt y = true := by
      intro y hy hne
      rw [hq] at hy
      rcases List.mem_cons.mp hy with rfl | hy
      · exact absurd rfl hne
      · exact hs.1 y hy
    by_cases hdue : t.time < m.now
    · right
      have hrem : ∀ y, y ∈ remove t m.queue ↔ y ∈ m.queue ∧ y ≠ t := by
        intro y
        rw [mem_remove (inv_queue_inj hi) hmem]
        constructor
        · rintro ⟨h1, h2⟩; exact ⟨h1, fun he => h2 (by rw [he])⟩
        · rintro ⟨h1, h2⟩; exact ⟨h1, fun he => h2 (inv_queue_inj hi y h1 t hmem he)⟩
      have hremid : ∀ y ∈ remove t m.queue, y.id ≠ t.id := by
        intro y hy he
        obtain ⟨h1, h2⟩ := (hrem y).mp hy
        exact h2 (inv_queue_inj hi y h1 t hmem he)
      have hremsorted : (remove t m.queue).Pairwise (fun a b => a.lt b = true) := hi.sorted.filter _
      have hhist : ∀ e, hist { m with phase := .picked e } = hist m ++ [e] := by
        intro e; simp [hist, hidle]
      have hdueQ := hi.dueQueue
      refine ⟨t, by rw [← hq]; exact hmem, hdue, by rw [← hq]; exact hmin, ?_⟩
      rw [← hq]
      cases hp : t.period with
      | some per =>
        have hpk : pick m = { m with queue := insert { t with time := t.time + per } (remove t m.queue), byId := setTask m.byId { t with time := t.time + per }, phase := .picked ⟨t.serial, t.time, m.now, t.period.isNone⟩ } := by
          simp [pick, hq, hdue, hp]
        have hins : ∀ y, y ∈ insert { t with time := t.time + per } (remove t m.queue) ↔
            y = { t with time := t.time + per } ∨ (y ∈ m.queue ∧ y ≠ t) := by
          intro y; rw [mem_insert { t with time := t.time + per } y _ hremid, hrem]
        have hset : ∀ k y, (k, y) ∈ setTask m.byId { t with time := t.time + per } ↔
            (k = t.id ∧ y = { t with time := t.time + per }) ∨ (k ≠ t.id ∧ (k, y) ∈ m.byId) := by
          intro k y
          simp only [setTask, List.mem_map]
          constructor
          · rintro ⟨⟨k', y'⟩, h1, h2⟩
            by_cases hk : k' = t.id
            · simp only [hk, if_true, Prod.mk.injEq] at h2
              exact Or.inl ⟨h2.1.symm, h2.2.symm⟩
            · simp only [hk, if_false, Prod.mk.injEq] at h2
              obtain ⟨rfl, rfl⟩ := h2
              exact Or.inr ⟨hk, h1⟩
          · rintro (⟨rfl, rfl⟩ | ⟨h1, h2⟩)
            · exact ⟨(t.id, t), (hi.agree t).mp hmem, by simp⟩
            · exact ⟨(k, y), h2, by simp [h1]⟩
        have hkeys : Conn.keys (setTask m.byId { t with time := t.time + per }) = Conn.keys m.byId := by
          simp only [Conn.keys, setTask, List.map_map]
          apply List.map_congr_left
          rintro ⟨k, y⟩ -
          simp only [Function.comp]
          split <;> simp_all
        rw [hpk]
        refine ⟨by simp [hp], rfl, rfl, rfl, rfl, ?_, by simp, ?_⟩
        · intro y; rw [hins]; simp; grind
        refine ⟨⟨by rw [hkeys]; exact hi.keys.nodup, by rw [hkeys]; exact hi.keys.range⟩, ?_, hi.last,
          sorted_insert _ _ hremid hremsorted, ?_, ?_, ?_, ?_, ?_, ?_, ?_, ?_, ?_, ?_, ?_⟩
        · rintro ⟨k, y⟩ he
          rcases (hset k y).mp he with ⟨rfl, rfl⟩ | ⟨-, h⟩
          · rfl
          · exact hi.ids _ h
        · intro y
          simp only [hins, hset]
          constructor
          · rintro (rfl | ⟨h1, h2⟩)
            · exact Or.inl ⟨rfl, rfl⟩
            · exact Or.inr ⟨fun he => h2 (inv_queue_inj hi y h1 t hmem he), (hi.agree y).mp h1⟩
          · rintro (⟨-, h⟩ | ⟨h1, h2⟩)
            · exact Or.inl h
            · exact Or.inr ⟨(hi.agree y).mpr h2, fun he => h1 (by rw [he])⟩
        · intro y hy
          rcases (hins y).mp hy with rfl | ⟨h, -⟩
          · exact hi.serial t hmem
          · exact hi.serial y h
        · intro y hy y' hy' he
          rcases (hins y).mp hy with rfl | ⟨h, hn⟩ <;> rcases (hins y').mp hy' with rfl | ⟨h', hn'⟩
          · rfl
          · exact absurd (hi.serialInj t hmem y' h' he).symm hn'
          · exact absurd (hi.serialInj y h t hmem he) hn
          · exact hi.serialInj y h y' h' he
        · intro y hy
          rcases (hins y).mp hy with rfl | ⟨h, -⟩
          · exact hi.users t hmem
          · exact hi.users y h
        all_goals
          rw [show hist _ = hist m ++ [⟨t.serial, t.time, m.now, t.period.isNone⟩] from by simp [hist, hidle]]
        · intro e he
          rcases List.mem_append.mp he with he | he
          · exact hi.hserial e he
          · simp at he; subst he; exact hi.serial t hmem
        · intro e he ho y hy
          rcases List.mem_append.mp he with he | he
          · rcases (hins y).mp hy with rfl | ⟨h, -⟩
            · exact hi.oneShot e he ho t hmem
            · exact hi.oneShot e he ho y h
          · simp at he; subst he; simp [hp] at ho
        · simp only [List.filter_append, List.filter_cons, hp, List.filter_nil]
          simpa using hi.once
        · intro e he y hy hse
          rcases List.mem_append.mp he with he | he
          · rcases (hins y).mp hy with rfl | ⟨h, -⟩
            · exact hi.kind e he t hmem hse
            · exact hi.kind e he y h hse
          · simp at he; subst he
            rcases (hins y).mp hy with rfl | ⟨h, hn⟩
            · rfl
            · exact absurd (hi.serialInj y h t hmem hse) hn
        · intro e he
          rcases List.mem_append.mp he with he | he
          · exact hi.due e he
          · simp at he; subst he; exact ⟨hdue, Nat.le_refl _⟩
        · rw [List.pairwise_append]
          refine ⟨hi.dueSorted, by simp, ?_⟩
          intro a ha b hb
          simp at hb; subst hb
          exact hi.dueQueue a ha t hmem
        · intro e he y hy
          rcases List.mem_append.mp he with he | he
          · rcases (hins y).mp hy with rfl | ⟨h, -⟩
            · have := hi.dueQueue e he t hmem
              simp only; omega
            · exact hi.dueQueue e he y h
          · simp at he; subst he
            rcases (hins y).mp hy with rfl | ⟨h, hn⟩
            · simp only; omega
            · exact lt_time (hmin y h hn)
      | none =>
        have hpk : pick m = { m with queue := remove t m.queue, byUser := m.byUser.filter (fun x => x ≠ (t.user, t.id)), byId := erase m.byId t.id, phase := .picked ⟨t.serial, t.time, m.now, t.period.isNone⟩ } := by
          simp [pick, hq, hdue, hp]
        rw [hpk]
        refine ⟨by simp [hp], rfl, rfl, rfl, rfl, ?_, ?_, ?_⟩
        · intro y; rw [hrem]; simp
        · intro e; rw [List.mem_filter]; simp
        refine ⟨sound_erase _ _ _ _ hi.keys, ?_, hi.last, hremsorted, ?_, ?_, ?_, ?_, ?_, ?_, ?_, ?_, ?_, ?_, ?_⟩
        · rintro ⟨k, y⟩ he
          exact hi.ids _ ((mem_erase _ _ _ _).mp he).1
        · intro y
          rw [mem_remove (inv_queue_inj hi) hmem, mem_erase, hi.agree]
        · intro y hy; exact hi.serial y ((hrem y).mp hy).1
        · intro y hy y' hy'; exact hi.serialInj y ((hrem y).mp hy).1 y' ((hrem y').mp hy').1
        · intro y hy
          rw [List.mem_filter]
          refine ⟨hi.users y ((hrem y).mp hy).1, ?_⟩
          simp only [ne_eq, Prod.mk.injEq, not_and, decide_eq_true_eq]
          intro _; exact hremid y hy
        all_goals
          rw [show hist _ = hist m ++ [⟨t.serial, t.time, m.now, t.period.isNone⟩] from by simp [hist, hidle]]
        · intro e he
          rcases List.mem_append.mp he with he | he
          · exact hi.hserial e he
          · simp at he; subst he; exact hi.serial t hmem
        · intro e he ho y hy
          rcases List.mem_append.mp he with he | he
          · exact hi.oneShot e he ho y ((hrem y).mp hy).1
          · simp at he; subst he
            obtain ⟨h1, h2⟩ := (hrem y).mp hy
            exact fun hse => h2 (hi.serialInj y h1 t hmem hse)
        · simp only [List.filter_append, List.filter_cons, hp, List.filter_nil, List.map_append]
          rw [List.nodup_append]
          refine ⟨hi.once, by simp, ?_⟩
          intro a ha b hb
          simp at hb; subst hb
          obtain ⟨e, he, rfl⟩ := List.mem_map.mp ha
          obtain ⟨he1, he2⟩ := List.mem_filter.mp he
          exact fun hse => hi.oneShot e he1 he2 t hmem hse.symm
        · intro e he y hy hse
          rcases List.mem_append.mp he with he | he
          · exact hi.kind e he y ((hrem y).mp hy).1 hse
          · simp at he; subst he
            obtain ⟨h1, h2⟩ := (hrem y).mp hy
            exact absurd (hi.serialInj y h1 t hmem hse) h2
        · intro e he
          rcases List.mem_append.mp he with he | he
          · exact hi.due e he
          · simp at he; subst he; exact ⟨hdue, Nat.le_refl _⟩
        · rw [List.pairwise_append]
          refine ⟨hi.dueSorted, by simp, ?_⟩
          intro a ha b hb
          simp at hb; subst hb
          exact hi.dueQueue a ha t hmem
        · intro e he y hy
          obtain ⟨h1, h2⟩ := (hrem y).mp hy
          rcases List.mem_append.mp he with he | he
          · exact hi.dueQueue e he y h1
          · simp at he; subst he
            exact lt_time (hmin y h1 h2)
    · left
      refine ⟨by simp [pick, hq, hdue], ?_⟩
      intro y hy
      rcases List.mem_cons.mp hy with rfl | hy
      · omega
      · have := lt_time (hs.1 y hy); omega

theorem inv_step {m m' : M} (a : Act) (hi : Inv m) (h : step m a = some m') : Inv m' := by
  cases a with
  | tick d =>
    simp only [step, Option.some.injEq] at h; subst h
    exact inv_shrink hi hi.keys (fun e h => h) (fun t h => h) hi.sorted hi.agree hi.users rfl rfl rfl
      (Nat.le_add_right _ _)
  | schedule u d p =>
    simp only [step] at h
    rcases schedule_spec hi u d p with ⟨-, h1⟩ | ⟨i, m1, h1, h2, -⟩
    · simp [h1] at h; subst h; exact hi
    · simp [h1] at h; subst h; exact h2
  | cancel i self =>
    simp only [step, cancel] at h
    have := (cancelLocked_spec hi i).1
    split at h
    · split at h
      · simp at h; subst h; exact this
      · simp at h
    · split at h
      · simp at h
      · simp at h; subst h; exact this
  | cancelUser u self =>
    simp only [step] at h
    have := (cancelUser_spec hi u).1
    split at h
    · split at h
      · simp at h; subst h; exact this
      · simp at h
    · split at h
      · simp at h
      · simp at h; subst h; exact this
  | pick =>
    simp only [step] at h
    split at h
    · rename_i hc
      simp only [Bool.and_eq_true, decide_eq_true_eq] at hc
      simp at h; subst h
      rcases pick_spec hi hc.2 with ⟨h1, -⟩ | ⟨t, -, -, -, -, -, -, -, -, -, -, h1⟩
      · rw [h1]; exact hi
      · exact h1
    · simp at h
  | start =>
    simp only [step] at h
    split at h
    · rename_i e hp
      simp at h; subst h
      exact inv_shrink hi hi.keys (fun e h => h) (fun t h => h) hi.sorted hi.agree hi.users rfl rfl
        (by simp [hist, hp]) (Nat.le_refl _)
    · simp at h
  | finish =>
    simp only [step] at h
    split at h
    · rename_i e hp
      simp at h; subst h
      exact inv_shrink hi hi.keys (fun e h => h) (fun t h => h) hi.sorted hi.agree hi.users rfl rfl
        (by simp [hist, hp]) (Nat.le_refl _)
    · simp at h
  | stop =>
    simp only [step, stop, Option.some.injEq] at h; subst h
    exact inv_shrink hi ⟨by simp [Conn.keys], by simp [Conn.keys]⟩ (by simp) (by simp) (by simp) (by simp)
      (by simp) rfl rfl rfl (Nat.le_refl _)

theorem inv_run : ∀ (as : List Act) {m m' : M}, Inv m → run m as = some m' → Inv m' := by
  intro as
  induction as with
  | nil => intro m m' hi h; simp [run] at h; exact h ▸ hi
  | cons a as ih =>
    intro m m' hi h
    simp only [run] at h
    split at h
    · simp at h
    · rename_i m1 h1
      exact ih (inv_step a hi h1) h

/-! ## Tasks that can no longer run -/

/-- The task with this serial can never be invoked (again). -/
structure Dead (x : Nat) (m : M) : Prop where
  old : x < m.count
  queue : ∀ t ∈ m.queue, t.serial ≠ x
  phase : ∀ e, m.phase = .picked e → e.serial ≠ x

/-- The invocations of a task. -/
def invocations (x : Nat) (m : M) : List Event := m.log.filter (fun e => e.serial = x)

theorem dead_step {x : Nat} {m m' : M} (a : Act) (hi : Inv m) (hd : Dead x m) (h : step m a = some m') :
    Dead x m' ∧ invocations x m' = invocations x m := by
  have shrink : ∀ m1 : M, (∀ t ∈ m1.queue, t ∈ m.queue) → m1.count = m.count → m1.phase = m.phase →
      m1.log = m.log → Dead x m1 ∧ invocations x m1 = invocations x m := by
    intro m1 h1 h2 h3 h4
    refine ⟨⟨by rw [h2]; exact hd.old, fun t ht => hd.queue t (h1 t ht), ?_⟩, by simp [invocations, h4]⟩
    intro e he; rw [h3] at he; exact hd.phase e he
  cases a with
  | tick d =>
    simp only [step, Option.some.injEq] at h; subst h
    exact shrink _ (fun t h => h) rfl rfl rfl
  | schedule u d p =>
    simp only [step] at h
    rcases schedule_spec hi u d p with ⟨-, h1⟩ | ⟨i, m1, h1, -, -, -, -, h3, h4, h5, h6, -⟩
    · simp [h1] at h; subst h; exact ⟨hd, rfl⟩
    · simp [h1] at h; subst h
      refine ⟨⟨by rw [h4]; have := hd.old; omega, ?_, ?_⟩, by simp [invocations, h5]⟩
      · intro t ht
        rcases (h3 t).mp ht with rfl | ht
        · have := hd.old; simp only; omega
        · exact hd.queue t ht
      · rw [h6]; exact hd.phase
  | cancel i self =>
    simp only [step, cancel] at h
    obtain ⟨-, c2, -, c4, c5, -, c7, -⟩ := cancelLocked_spec hi i
    have := shrink _ (fun t ht => ((c2 t).mp ht).1) c7 c4 c5
    split at h
    · split at h
      · simp at h; subst h; exact this
      · simp at h
    · split at h
      · simp at h
      · simp at h; subst h; exact this
  | cancelUser u self =>
    simp only [step] at h
    obtain ⟨-, c2, -, c4, c5, -, c7, -⟩ := cancelUser_spec hi u
    have := shrink _ (fun t ht => ((c2 t).mp ht).1) c7 c4 c5
    split at h
    · split at h
      · simp at h; subst h; exact this
      · simp at h
    · split at h
      · simp at h
      · simp at h; subst h; exact this
  | pick =>
    simp only [step] at h
    split at h
    · rename_i hc
      simp only [Bool.and_eq_true, decide_eq_true_eq] at hc
      simp at h; subst h
      rcases pick_spec hi hc.2 with ⟨h1, -⟩ | ⟨t, ht, -, -, p1, p2, p3, -, -, p6, -⟩
      · rw [h1]; exact ⟨hd, rfl⟩
      · refine ⟨⟨by rw [p3]; exact hd.old, ?_, ?_⟩, by simp [invocations, p2]⟩
        · intro y hy
          rcases (p6 y).mp hy with ⟨h1, -⟩ | ⟨q, -, rfl⟩
          · exact hd.queue y h1
          · exact hd.queue t ht
        · intro e he
          rw [p1] at he
          cases he
          exact hd.queue t ht
    · simp at h
  | start =>
    simp only [step] at h
    split at h
    · rename_i e hp
      simp at h; subst h
      refine ⟨⟨hd.old, hd.queue, by simp⟩, ?_⟩
      have := hd.phase e hp
      simp [invocations, List.filter_append, this]
    · simp at h
  | finish =>
    simp only [step] at h
    split at h
    · rename_i e hp
      simp at h; subst h
      exact ⟨⟨hd.old, hd.queue, by simp⟩, rfl⟩
    · simp at h
  | stop =>
    simp only [step, stop, Option.some.injEq] at h; subst h
    exact shrink _ (by simp) rfl rfl rfl

theorem dead_run {x : Nat} : ∀ (as : List Act) {m m' : M}, Inv m → Dead x m → run m as = some m' →
    invocations x m' = invocations x m := by
  intro as
  induction as with
  | nil => intro m m' hi hd h; simp [run] at h; rw [h]
  | cons a as ih =>
    intro m m' hi hd h
    simp only [run] at h
    split at h
    · simp at h
    · rename_i m1 h1
      obtain ⟨d1, d2⟩ := dead_step a hi hd h1
      rw [ih (inv_step a hi h1) d1 h, d2]

end Verif.Async
