import Verif.Fd.ObjLemmas
import Verif.Fd.Spec

/-! # C102: descriptors have one owner and callbacks reach it -/
namespace Verif.Fd

theorem held_eq (l : List (Nat × Obj)) : held l = l.filterMap (·.2.fd) := by
  induction l with
  | nil => rfl
  | cons e l ih =>
    obtain ⟨i, f, b⟩ := e
    cases f <;> simp [held, ih]

/-- A history: a server is bound to descriptor 3 and listens, a client is accepted as 4, the client is watched and calls, the
program connects as 5, the client is closed. -/
def story : List Act :=
  [.server (.ok 3), .listen 1 true, .ready 3 (some 4), .watch 2 true, .ready 4 none, .connect (.ok 5), .watch 3 true, .close 2]

example : run World.init story = .ok
    ⟨[(0, ⟨some 3, false⟩), (2, ⟨none, false⟩), (3, ⟨some 5, true⟩)], 4, [5, 3], [(5, 3)], [(1, ⟨some 0, true⟩)], [5]⟩
    [.server 1, .says true, .accepted 1 2, .says true, .called 2, .made 3, .says true] := by decide +kernel

/-- Whatever happens, the descriptors that are open are those of the live sockets, each of exactly one: none leaks, none is
shared, and no socket keeps a descriptor that is closed. -/
theorem C102_owned {as : List Act} {w : World} {x : List Seen} (h : run World.init as = .ok w x) :
    (held w.objs).Perm w.files ∧ (held w.objs).Nodup := by
  have hi := inv_run inv_init h
  rw [held_eq]
  exact ⟨hi.owned, hi.owned.nodup_iff.2 hi.nodup⟩

example : ∃ w x, run World.init story = .ok w x ∧ held w.objs = [3, 5] := ⟨_, _, rfl, by decide +kernel⟩

/-- When the last socket is gone, nothing is open. -/
theorem C102_no_leak {as : List Act} {w : World} {x : List Seen} (h : run World.init as = .ok w x) (hn : w.objs = []) : w.files = [] := by
  have := (C102_owned h).1
  rw [hn] at this
  exact this.symm.eq_nil

example : ∃ w x, run World.init (story ++ [.destroy 2, .destroy 3, .dropServer 1]) = .ok w x ∧ w.objs = [] :=
  ⟨_, _, rfl, by decide +kernel⟩

/-- No history closes a descriptor that is not open, so none is closed twice. -/
theorem C102_never_stray (as : List Act) : run World.init as ≠ .stray := by
  intro h
  rcases good_run inv_init as with h1 | ⟨h1, -⟩
  · rw [h] at h1; exact h1
  · rw [h] at h1; cases h1

theorem faithful_init : Faithful World.init := by simp [Faithful, World.init]

/-- Unless sockets are moved, the callback of the watcher is for a live socket, whatever happens. -/
theorem C102_alive_partial {as : List Act} (hm : still as) : run World.init as ≠ .dangling := by
  intro h
  rcases good_run inv_init as with h1 | ⟨-, i, hi⟩
  · rw [h] at h1; exact h1 faithful_init
  · exact hm i hi

example : still story := by simp [still, story]

/-- A socket that is watched and then moved leaves its callback with the old socket. When that goes, the callback uses it. -/
theorem C102_alive_violated : run World.init [.connect (.ok 3), .watch 0 true, .move 0, .destroy 0, .ready 3 none] = .dangling := by decide +kernel

/-- Unless sockets are moved, the watcher knows the descriptors of exactly the sockets that are watched, each with its socket. -/
theorem C102_watched_partial {as : List Act} {w : World} {x : List Seen} (hm : still as) (h : run World.init as = .ok w x) (f i : Nat) :
    (f, i) ∈ w.watch ↔ (i, (⟨some f, true⟩ : Obj)) ∈ w.objs := by
  have hi := inv_run inv_init h
  have hF := faithful_run inv_init faithful_init h hm
  constructor
  · intro hw
    obtain ⟨o, ho, h1, h2⟩ := hF _ hw
    have : o = ⟨some f, true⟩ := by cases o; simp_all
    rwa [← this]
  · intro ho
    obtain ⟨⟨f', j⟩, he, hef⟩ := hi.wall _ ho rfl f rfl
    simp only at hef
    subst hef
    obtain ⟨o, ho', h1, -⟩ := hF _ he
    have := hi.one ho ho' rfl h1
    simp only [Prod.mk.injEq] at this
    rw [this.1]; exact he

/-- The moved socket has the descriptor and is watched, and the callback is for the other one. -/
theorem C102_watched_violated : ∃ w x, run World.init [.connect (.ok 3), .watch 0 true, .move 0] = .ok w x ∧
    (1, (⟨some 3, true⟩ : Obj)) ∈ w.objs ∧ w.watch = [(3, 0)] :=
  ⟨_, _, rfl, by decide +kernel, by decide +kernel⟩

/-- A socket that is not watched, or the socket of a server. -/
def Silent (w : World) (i : Nat) : Prop := ∀ o, (i, o) ∈ w.objs → o.watching = false ∨ ∃ s v, (s, v) ∈ w.servers ∧ v.sock = some i

theorem silent_step {w w' : World} {a : Act} {x : List Seen} {i : Nat} (hk : Inv w) (hF : Faithful w) (hm : ∀ i, a ≠ .move i) (h : step w a = .ok w' x)
    (hs : Silent w i) (ha : ∀ b, a ≠ .watch i b) : Silent w' i ∧ .called i ∉ x := by
  constructor
  · intro o' ho'
    rcases step_objs hk hm h ho' with ⟨-, h1⟩ | ⟨o, ho, ht⟩
    · exact Or.inl h1
    · have later : (∃ s v, (s, v) ∈ w.servers ∧ v.sock = some i) → ∃ s v, (s, v) ∈ w'.servers ∧ v.sock = some i := by
        rintro ⟨s, v, hv, hvi⟩
        rcases step_servers h hv with h1 | ⟨rfl, -⟩
        · exact ⟨s, v, h1, hvi⟩
        · exact absurd ho' (drop_gone hk h hv hvi o')
      rcases hs o ho with h1 | h1
      · rcases ht with rfl | rfl | rfl | ⟨rfl, -, ⟨b, hb⟩ | ⟨s, b, v, -, hv, hvi⟩⟩
        · exact Or.inl h1
        · exact Or.inl rfl
        · exact Or.inl rfl
        · exact absurd hb (ha b)
        · exact Or.inr (later ⟨s, v, hv, hvi⟩)
      · exact Or.inr (later h1)
  · intro hc
    have : ∃ g r, a = .ready g r := by
      cases a with
      | ready g r => exact ⟨g, r, rfl⟩
      | server b =>
        cases b <;> simp only [step, newServer] at h <;> (try split at h) <;> simp only [Res.ok.injEq, reduceCtorEq] at h <;> (obtain ⟨-, rfl⟩ := h; simp at hc)
      | listen s b =>
        obtain ⟨v, -, h⟩ := serve_ok h
        rcases listen_ok h with ⟨-, -, rfl⟩ | ⟨-, -, rfl⟩ | ⟨_, _, _, -, -, -, rfl⟩ <;> simp at hc
      | stop s =>
        obtain ⟨v, -, h⟩ := serve_ok h
        unfold stopListening at h
        split at h
        · simp at h
        · split at h <;> simp only [Res.ok.injEq, reduceCtorEq] at h
          obtain ⟨-, rfl⟩ := h; simp at hc
      | shut s =>
        obtain ⟨v, -, h⟩ := serve_ok h
        unfold closeServer at h
        split at h
        · simp only [Res.ok.injEq] at h; obtain ⟨-, rfl⟩ := h; simp at hc
        · split at h
          · simp at h
          · rw [(shut_ok h).2] at hc; simp at hc
      | dropServer s =>
        obtain ⟨v, -, h⟩ := serve_ok h
        unfold dropServer at h
        split at h
        · simp only [Res.ok.injEq] at h; obtain ⟨-, rfl⟩ := h; simp at hc
        · split at h
          · simp at h
          · split at h
            · rename_i hu
              simp only [Res.ok.injEq] at h
              obtain ⟨-, rfl⟩ := h
              obtain ⟨_, -, -, rfl⟩ := destroy_ok hu
              simp at hc
            · rename_i hr; exact (hr _ _ h).elim
      | connect j =>
        cases j <;> simp only [step, connect] at h <;> (try split at h) <;> (try split at h) <;> (try split at h) <;>
          simp only [Res.ok.injEq, reduceCtorEq] at h <;> (obtain ⟨-, rfl⟩ := h; simp at hc)
      | watch j b =>
        obtain ⟨o, -, -, h⟩ := use_ok h
        unfold watch at h
        split at h
        · simp only [Res.ok.injEq] at h; obtain ⟨-, rfl⟩ := h; simp at hc
        · split at h
          · simp at h
          · split at h <;> simp only [Res.ok.injEq, reduceCtorEq] at h
            obtain ⟨-, rfl⟩ := h; simp at hc
      | unwatch j => obtain ⟨o, -, -, h⟩ := use_ok h; simp only [Res.ok.injEq] at h; obtain ⟨-, rfl⟩ := h; simp at hc
      | close j => obtain ⟨o, -, -, h⟩ := use_ok h; rw [(shut_ok h).2] at hc; simp at hc
      | destroy j => obtain ⟨o, -, -, h⟩ := use_ok h; obtain ⟨_, -, -, rfl⟩ := destroy_ok h; simp at hc
      | move j => exact absurd rfl (hm j)
    obtain ⟨g, r, rfl⟩ := this
    obtain ⟨j, p, hj, hp, ⟨hn, -, rfl⟩ | ⟨s, v, hs', ⟨-, -, rfl⟩ | ⟨f, -, -, -, rfl⟩⟩⟩ := ready_ok h
    · simp only [List.mem_singleton, Seen.called.injEq] at hc
      subst hc
      obtain ⟨o, ho, -, hw⟩ := hF _ hj
      rcases hs o ho with h1 | ⟨s, v, hv, hvi⟩
      · rw [h1] at hw; cases hw
      · rw [List.find?_eq_none] at hn
        exact hn _ hv (by simpa using hvi)
    · simp at hc
    · simp at hc

theorem silent_run {w w' : World} {as : List Act} {x : List Seen} {i : Nat} (hk : Inv w) (hF : Faithful w) (hm : still as) (ha : unasked i as)
    (hs : Silent w i) (h : run w as = .ok w' x) : .called i ∉ x := by
  induction as generalizing w x with
  | nil => simp only [run, Res.ok.injEq] at h; rw [← h.2]; simp
  | cons a as ih =>
    obtain ⟨w1, x1, y, h1, h2, rfl⟩ := run_cons h
    have hm1 : ∀ i, a ≠ .move i := fun i hc => hm i (hc ▸ List.mem_cons_self)
    have hg := good_step hk a
    rw [h1] at hg
    obtain ⟨hs1, hc1⟩ := silent_step hk hF hm1 h1 hs (fun b hc => ha b (hc ▸ List.mem_cons_self))
    have := ih hg.1 (hg.2 hm1 hF) (fun i hi => hm i (List.mem_cons_of_mem _ hi)) (fun b hb => ha b (List.mem_cons_of_mem _ hb)) hs1 h2
    simp [hc1, this]

/-- The callback of a socket runs only if the program has asked for it. -/
theorem C102_asked_partial {as : List Act} {w : World} {x : List Seen} (hm : still as) (h : run World.init as = .ok w x) {i : Nat} (ha : unasked i as) :
    .called i ∉ x :=
  silent_run inv_init faithful_init hm ha (by simp [Silent, World.init]) h

example : unasked 0 story := by simp [unasked, story]

theorem ends_silent {w w' : World} {a : Act} {i : Nat} {x : List Seen} (hk : Inv w) (he : Ends i a) (h : step w a = .ok w' x) :
    Silent w' i ∧ x = [] ∧ (a ≠ .unwatch i → ∀ o, (i, o) ∈ w'.objs → o = ⟨none, false⟩) := by
  have hg := good_step hk a
  rw [h] at hg
  cases he with
  | unwatch =>
    obtain ⟨o, ho, -, h⟩ := use_ok h
    simp only [Res.ok.injEq] at h
    obtain ⟨rfl, rfl⟩ := h
    refine ⟨?_, rfl, fun hc => absurd rfl hc⟩
    intro o' ho'
    have := key_inj hg.1.keys ho' (stop_obj (hk.obj_iff.1 ho))
    rw [this]; exact Or.inl rfl
  | close =>
    obtain ⟨o, ho, -, h⟩ := use_ok h
    obtain ⟨hc, rfl⟩ := shut_ok h
    obtain ⟨w2, hc2, -, -, hin⟩ := close_some hk (hk.obj_iff.1 ho)
    rw [hc] at hc2
    obtain rfl := Option.some.inj hc2
    have key : ∀ o, (i, o) ∈ w'.objs → o = ⟨none, false⟩ := fun o' ho' => key_inj hg.1.keys ho' hin
    exact ⟨fun o' ho' => Or.inl (by rw [key o' ho']), rfl, fun _ => key⟩
  | destroy =>
    obtain ⟨o, ho, -, h⟩ := use_ok h
    obtain ⟨u, -, rfl, rfl⟩ := destroy_ok h
    exact ⟨fun o' ho' => by simp at ho', rfl, fun _ o' ho' => by simp at ho'⟩

/-- After StopWatching, Close or the destruction of a socket its callback does not run, until the program asks again. -/
theorem C102_silent_partial {as bs : List Act} {a : Act} {i : Nat} {w1 w : World} {x z : List Seen} (hm : still (as ++ a :: bs)) (he : Ends i a)
    (h1 : run World.init as = .ok w1 x) (h : run World.init (as ++ a :: bs) = .ok w z) (ha : unasked i bs) :
    ∃ y, z = x ++ y ∧ .called i ∉ y := by
  obtain ⟨w1', x', y, h1', h2, rfl⟩ := run_append h
  rw [h1, Res.ok.injEq] at h1'
  obtain ⟨rfl, rfl⟩ := h1'
  have hk := inv_run inv_init h1
  have hF := faithful_run inv_init faithful_init h1 (fun i hi => hm i (List.mem_append_left _ hi))
  obtain ⟨w2, x2, y2, h3, h4, rfl⟩ := run_cons h2
  obtain ⟨hs, rfl, -⟩ := ends_silent hk he h3
  have hg := good_step hk a
  rw [h3] at hg
  refine ⟨_, rfl, ?_⟩
  have hm' : ∀ i, a ≠ .move i := by intro j hj; subst hj; cases he
  simpa using silent_run hg.1 (hg.2 hm' hF) (fun i hi => hm i (List.mem_append_right _ (List.mem_cons_of_mem _ hi))) ha hs h4

example : ∃ w z, run World.init (story ++ .unwatch 3 :: [.connect (.ok 6), .watch 4 true, .ready 6 none]) = .ok w z ∧ .called 4 ∈ z :=
  ⟨_, _, rfl, by decide +kernel⟩

/-- A closed socket. -/
def Shut (w : World) (i : Nat) : Prop := i < w.next ∧ ∀ o, (i, o) ∈ w.objs → o.fd = none

theorem step_next {w w' : World} {a : Act} {x : List Seen} (h : step w a = .ok w' x) : w.next ≤ w'.next := by
  cases a with
  | server b =>
    cases b <;> simp only [step, newServer] at h <;> (try split at h) <;> simp only [Res.ok.injEq, reduceCtorEq] at h <;>
      (obtain ⟨rfl, -⟩ := h; simp)
  | listen s b =>
    obtain ⟨v, -, h⟩ := serve_ok h
    rcases listen_ok h with ⟨-, rfl, -⟩ | ⟨-, rfl, -⟩ | ⟨_, _, _, -, -, hw, -⟩
    · exact Nat.le_refl _
    · exact Nat.le_refl _
    · unfold watch at hw
      split at hw
      · simp only [Res.ok.injEq] at hw; obtain ⟨rfl, -⟩ := hw; exact Nat.le_refl _
      · split at hw
        · simp at hw
        · split at hw <;> simp only [Res.ok.injEq, reduceCtorEq] at hw
          obtain ⟨rfl, -⟩ := hw; exact Nat.le_refl _
  | stop s =>
    obtain ⟨v, -, h⟩ := serve_ok h
    unfold stopListening at h
    split at h
    · simp at h
    · split at h <;> simp only [Res.ok.injEq, reduceCtorEq] at h
      obtain ⟨rfl, -⟩ := h; rw [stop_next]; exact Nat.le_refl _
  | shut s =>
    obtain ⟨v, -, h⟩ := serve_ok h
    unfold closeServer at h
    split at h
    · simp only [Res.ok.injEq] at h; obtain ⟨rfl, -⟩ := h; exact Nat.le_refl _
    · split at h
      · simp at h
      · rw [close_next (shut_ok h).1]; exact Nat.le_refl _
  | dropServer s =>
    obtain ⟨v, -, h⟩ := serve_ok h
    unfold dropServer at h
    split at h
    · simp only [Res.ok.injEq] at h; obtain ⟨rfl, -⟩ := h; exact Nat.le_refl _
    · split at h
      · simp at h
      · split at h
        · rename_i hu
          simp only [Res.ok.injEq] at h
          obtain ⟨rfl, -⟩ := h
          obtain ⟨_, hc, rfl, -⟩ := destroy_ok hu
          exact Nat.le_of_eq (close_next hc).symm
        · rename_i hr; exact (hr _ _ h).elim
  | ready g r =>
    obtain ⟨j, p, hj, hp, ⟨-, rfl, -⟩ | ⟨s, v, -, ⟨-, rfl, -⟩ | ⟨f, -, -, rfl, -⟩⟩⟩ := ready_ok h
    · exact Nat.le_refl _
    · exact Nat.le_refl _
    · rw [stop_opens]
      show w.next ≤ (stopWatching w j p).next + 1
      rw [stop_next]; omega
  | connect j =>
    cases j with
    | noSocket => simp only [step, connect, Res.ok.injEq] at h; obtain ⟨rfl, -⟩ := h; simp [World.add]
    | fails g =>
      simp only [step, connect] at h
      split at h
      · simp at h
      · split at h
        · simp only [Res.ok.injEq] at h; obtain ⟨rfl, -⟩ := h; simp [World.add, World.opens]
        · split at h
          · simp at h
          · rename_i hu
            simp only [Res.ok.injEq] at h; obtain ⟨rfl, -⟩ := h
            rw [close_next hu]; simp [World.add, World.opens]
    | ok g =>
      simp only [step, connect] at h
      split at h
      · simp at h
      · split at h <;>
        · simp only [Res.ok.injEq] at h; obtain ⟨rfl, -⟩ := h; simp [World.add, World.opens]
  | watch j b =>
    obtain ⟨o, -, -, hw⟩ := use_ok h
    unfold watch at hw
    split at hw
    · simp only [Res.ok.injEq] at hw; obtain ⟨rfl, -⟩ := hw; exact Nat.le_refl _
    · split at hw
      · simp at hw
      · split at hw <;> simp only [Res.ok.injEq, reduceCtorEq] at hw
        obtain ⟨rfl, -⟩ := hw; exact Nat.le_refl _
  | unwatch j => obtain ⟨o, -, -, h⟩ := use_ok h; simp only [Res.ok.injEq] at h; obtain ⟨rfl, -⟩ := h; rw [stop_next]; exact Nat.le_refl _
  | close j => obtain ⟨o, -, -, h⟩ := use_ok h; rw [close_next (shut_ok h).1]; exact Nat.le_refl _
  | destroy j => obtain ⟨o, -, -, h⟩ := use_ok h; obtain ⟨_, hc, rfl, -⟩ := destroy_ok h; exact Nat.le_of_eq (close_next hc).symm
  | move j => obtain ⟨o, -, -, h⟩ := use_ok h; simp only [moved, Res.ok.injEq] at h; obtain ⟨rfl, -⟩ := h; simp

theorem shut_step {w w' : World} {a : Act} {x : List Seen} {i : Nat} (hk : Inv w) (hm : ∀ i, a ≠ .move i) (h : step w a = .ok w' x)
    (hs : Shut w i) : Shut w' i ∧ ∀ b, a ≠ .watch i b := by
  have hx := step_next h
  refine ⟨⟨Nat.lt_of_lt_of_le hs.1 hx, ?_⟩, ?_⟩
  · intro o' ho'
    rcases step_objs hk hm h ho' with ⟨h1, -⟩ | ⟨o, ho, ht⟩
    · have := hs.1; omega
    · have ho1 := hs.2 o ho
      rcases ht with rfl | rfl | rfl | ⟨-, h1, -⟩
      · exact ho1
      · rfl
      · exact ho1
      · exact absurd ho1 h1
  · rintro b rfl
    obtain ⟨o, ho, -, hw⟩ := use_ok h
    have ho1 := hs.2 o (hk.obj_iff.1 ho)
    have ho2 : o.watching = false := by
      cases hb : o.watching
      · rfl
      · exact absurd ho1 (hk.opened _ (hk.obj_iff.1 ho) hb)
    simp [watch, ho1, ho2] at hw

theorem shut_unasked {w w' : World} {as : List Act} {x : List Seen} {i : Nat} (hk : Inv w) (hm : still as) (h : run w as = .ok w' x)
    (hs : Shut w i) : unasked i as ∧ Shut w' i := by
  induction as generalizing w x with
  | nil => simp only [run, Res.ok.injEq] at h; rw [← h.1]; exact ⟨fun b => by simp, hs⟩
  | cons a as ih =>
    obtain ⟨w1, x1, y, h1, h2, rfl⟩ := run_cons h
    have hm1 : ∀ i, a ≠ .move i := fun i hc => hm i (hc ▸ List.mem_cons_self)
    have hg := good_step hk a
    rw [h1] at hg
    obtain ⟨hs1, hc1⟩ := shut_step hk hm1 h1 hs
    obtain ⟨h3, h4⟩ := ih hg.1 (fun i hi => hm i (List.mem_cons_of_mem _ hi)) h2 hs1
    refine ⟨fun b hb => ?_, h4⟩
    rcases List.mem_cons.1 hb with hb | hb
    · exact hc1 b hb.symm
    · exact h3 b hb

/-- A socket that was closed or destroyed stays so for ever, and its callback never runs again. -/
theorem C102_closed_partial {as bs : List Act} {a : Act} {i : Nat} {w1 w : World} {x z : List Seen} (hm : still (as ++ a :: bs))
    (he : a = .close i ∨ a = .destroy i) (h1 : run World.init as = .ok w1 x) (h : run World.init (as ++ a :: bs) = .ok w z) :
    (∃ y, z = x ++ y ∧ .called i ∉ y) ∧ ∀ o, (i, o) ∈ w.objs → o = ⟨none, false⟩ := by
  have he' : Ends i a := by rcases he with rfl | rfl <;> constructor
  obtain ⟨w1', x', y, h1', h2, rfl⟩ := run_append h
  rw [h1, Res.ok.injEq] at h1'
  obtain ⟨rfl, rfl⟩ := h1'
  have hk := inv_run inv_init h1
  obtain ⟨w2, x2, y2, h3, h4, rfl⟩ := run_cons h2
  have hg := good_step hk a
  rw [h3] at hg
  have hlt : i < w1.next := by
    rcases he with rfl | rfl <;>
    · obtain ⟨o, ho, -⟩ := use_ok h3
      exact hk.below _ (hk.obj_iff.1 ho)
  obtain ⟨-, -, hc⟩ := ends_silent hk he' h3
  have hs : Shut w2 i := ⟨Nat.lt_of_lt_of_le hlt (step_next h3), fun o ho => by
    rw [hc (by rcases he with rfl | rfl <;> simp) o ho]⟩
  obtain ⟨hu, hs'⟩ := shut_unasked hg.1 (fun i hi => hm i (List.mem_append_right _ (List.mem_cons_of_mem _ hi))) h4 hs
  refine ⟨C102_silent_partial hm he' h1 h hu, fun o ho => ?_⟩
  have hi := inv_run inv_init h
  have hf := hs'.2 o ho
  cases hb : o.watching
  · cases o; simp_all
  · exact absurd hf (hi.opened _ ho hb)

example : ∃ w z, run World.init (story.dropLast ++ .close 2 :: [.connect (.ok 4), .watch 4 true, .ready 4 none]) = .ok w z ∧ .called 4 ∈ z :=
  ⟨_, _, rfl, by decide +kernel⟩

end Verif.Fd
