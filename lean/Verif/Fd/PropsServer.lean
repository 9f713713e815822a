import Verif.Fd.Props

/-! # C102: servers, the connector and the limits -/
namespace Verif.Fd

/-- Close: the socket has no descriptor and is not watched, its descriptor is free, and every other socket and descriptor is as
it was. -/
theorem C102_close {as : List Act} {w w' : World} {x y : List Seen} {i : Nat} (h : run World.init as = .ok w x) (hc : step w (.close i) = .ok w' y) :
    (∀ o, (i, o) ∈ w'.objs ↔ o = ⟨none, false⟩) ∧
    (∀ j o, j ≠ i → ((j, o) ∈ w'.objs ↔ (j, o) ∈ w.objs)) ∧
    (∀ f, f ∈ w'.files ↔ f ∈ w.files ∧ ∀ b, (i, ⟨some f, b⟩) ∉ w.objs) ∧
    w'.servers = w.servers ∧ y = [] := by
  have hk := inv_run inv_init h
  have hg := good_step hk (.close i)
  rw [hc] at hg
  obtain ⟨-, -, hkey⟩ := ends_silent hk .close hc
  obtain ⟨o, ho, -, hs⟩ := use_ok hc
  obtain ⟨hcl, rfl⟩ := shut_ok hs
  have ho' := hk.obj_iff.1 ho
  obtain ⟨w2, hc2, -, -, hin⟩ := close_some hk ho'
  rw [hcl] at hc2
  obtain rfl := Option.some.inj hc2
  refine ⟨fun o1 => ⟨hkey (by simp) o1, fun e => by rw [e]; exact hin⟩, ?_, ?_, close_servers hcl, rfl⟩
  · intro j p hj
    unfold close at hcl
    split at hcl
    · simp only [Option.some.injEq] at hcl; subst hcl; rfl
    · split at hcl
      · simp only [Option.some.injEq] at hcl
        subst hcl
        have e1 : ∀ u : World, (j, p) ∈ ((u.put i ⟨none, false⟩).closes ‹Nat›).objs ↔ (j, p) ∈ u.objs := by
          intro u
          show (j, p) ∈ (u.put i ⟨none, false⟩).objs ↔ _
          rw [mem_put]
          simp only [Prod.mk.injEq]
          exact ⟨fun h => h.elim (·.2) (fun h => absurd h.1.1 hj), fun h => Or.inl ⟨hj, h⟩⟩
        rw [e1]
        unfold stopWatching
        split
        · show (j, p) ∈ (w.put i _).objs ↔ _
          rw [mem_put]
          simp only [Prod.mk.injEq]
          exact ⟨fun h => h.elim (·.2) (fun h => absurd h.1.1 hj), fun h => Or.inl ⟨hj, h⟩⟩
        · rfl
      · simp at hcl
  · intro f
    unfold close at hcl
    cases hf : o.fd with
    | none =>
      simp only [hf, Option.some.injEq] at hcl
      subst hcl
      refine ⟨fun hm => ⟨hm, fun b hb => ?_⟩, (·.1)⟩
      have := key_inj hk.keys ho' hb
      rw [this] at hf; simp at hf
    | some g =>
      simp only [hf, if_pos (hk.open_of ho' hf), Option.some.injEq] at hcl
      subst hcl
      show f ∈ List.filter _ (stopWatching w i o).files ↔ _
      rw [stop_files, List.mem_filter]
      simp only [decide_eq_true_eq]
      refine and_congr_right fun _ => ⟨fun hne b hb => ?_, fun hn hfg => ?_⟩
      · have := key_inj hk.keys ho' hb
        rw [this] at hf
        simp only [Option.some.injEq] at hf
        exact hne hf
      · subst hfg
        refine hn o.watching ?_
        have : (⟨some f, o.watching⟩ : Obj) = o := by cases o; simp_all
        rw [this]; exact ho'

example : ∃ w x, run World.init story.dropLast = .ok w x ∧ (2, (⟨some 4, true⟩ : Obj)) ∈ w.objs ∧ ∃ w' y, step w (.close 2) = .ok w' y :=
  ⟨_, _, rfl, by decide +kernel, _, _, rfl⟩

theorem find_server {w : World} (hk : Inv w) {s i : Nat} {v : Srv} (hv : (s, v) ∈ w.servers) (hi : v.sock = some i) :
    w.servers.find? (fun e => e.2.sock = some i) = some (s, v) := by
  cases hf : w.servers.find? (fun e => e.2.sock = some i) with
  | none => rw [List.find?_eq_none] at hf; exact absurd (by simpa using hi) (hf _ hv)
  | some u =>
    have h1 : u.2.sock = some i := by simpa using List.find?_some hf
    have h2 := List.mem_of_find?_eq_some hf
    by_cases hs : u.1 = s
    · obtain ⟨us, uv⟩ := u
      replace hs : us = s := hs
      subst hs
      rw [key_inj hk.skeys h2 hv]
    · exact absurd h1 (end_inv hk hv hi u (List.mem_filter.2 ⟨h2, by simpa using hs⟩))

/-- A client that the kernel accepts is given to the callback of the server as a new socket with its own descriptor; the server
has stopped to listen by then. -/
theorem C102_accepts {as : List Act} {w : World} {x : List Seen} (h : run World.init as = .ok w x) (hm : still as) {s i g f : Nat} {v : Srv}
    (hv : (s, v) ∈ w.servers) (hi : v.sock = some i) (hl : (i, (⟨some g, true⟩ : Obj)) ∈ w.objs) (hf : f ∉ w.files) :
    ∃ w' j, step w (.ready g (some f)) = .ok w' [.accepted s j] ∧ (∀ o, (j, o) ∉ w.objs) ∧ (j, (⟨some f, false⟩ : Obj)) ∈ w'.objs ∧
      (i, (⟨some g, false⟩ : Obj)) ∈ w'.objs ∧ (s, v) ∈ w'.servers ∧ ∀ k, (g, k) ∉ w'.watch := by
  have hk := inv_run inv_init h
  have hw := (C102_watched_partial hm h g i).2 hl
  have e1 : w.watch.find? (fun e => e.1 = g) = some (g, i) := by
    have := find_iff (α := Nat) hk.wkeys (i := g) (a := i)
    obtain ⟨e, he, hei⟩ := Option.map_eq_some_iff.1 (this.2 hw)
    have h1 : e.1 = g := by simpa using List.find?_some he
    rw [he]
    obtain ⟨a, b⟩ := e
    simp only at h1 hei
    rw [h1, hei]
  have e2 := find_server hk hv hi
  refine ⟨(stopWatching (w.opens f) i ⟨some g, true⟩).add (some f), w.next, by simp only [step, ready, e1, hk.obj_iff.2 hl, e2, accept, if_neg hf], ?_, ?_, ?_, ?_, ?_⟩
  · intro o ho; exact absurd (hk.below _ ho) (Nat.lt_irrefl _)
  · rw [stop_opens]
    refine List.mem_append_right _ (List.mem_singleton.2 ?_)
    show _ = ((stopWatching w i _).next, _)
    rw [stop_next]
  · rw [stop_opens]
    exact List.mem_append_left _ (stop_obj hl)
  · rw [stop_opens]
    show _ ∈ (stopWatching w i _).servers
    rw [stop_servers]; exact hv
  · rw [stop_opens]
    intro k hmem
    have : (g, k) ∈ w.watch.filter (fun e => some e.1 ≠ some g) := hmem
    have := (List.mem_filter.1 this).2
    simp at this

example : ∃ w x, run World.init [.server (.ok 3), .listen 1 true] = .ok w x ∧ (1, (⟨some 0, true⟩ : Srv)) ∈ w.servers ∧
    (0, (⟨some 3, true⟩ : Obj)) ∈ w.objs ∧ 4 ∉ w.files := ⟨_, _, rfl, by decide +kernel, by decide +kernel, by decide +kernel⟩

/-- A server that is not listening. -/
def Deaf (w : World) (s : Nat) : Prop := s < w.next ∧ ∀ v i o, (s, v) ∈ w.servers → v.sock = some i → (i, o) ∈ w.objs → o.watching = false

theorem server_new {w w' : World} {a : Act} {x : List Seen} (h : step w a = .ok w' x) {s : Nat} {v : Srv}
    (hv : (s, v) ∈ w'.servers) : (s, v) ∈ w.servers ∨ w.next ≤ s := by
  cases a with
  | server b =>
    cases b with
    | noSocket =>
      simp only [step, newServer, Res.ok.injEq] at h
      obtain ⟨rfl, -⟩ := h
      simp only [List.mem_append, List.mem_singleton, Prod.mk.injEq] at hv
      rcases hv with hv | hv
      · exact Or.inl hv
      · exact Or.inr (by omega)
    | bindFails g =>
      simp only [step, newServer] at h
      split at h
      · simp at h
      · simp only [Res.ok.injEq] at h
        obtain ⟨rfl, -⟩ := h
        simp only [List.mem_append, List.mem_singleton, Prod.mk.injEq] at hv
        rcases hv with hv | hv
        · exact Or.inl hv
        · exact Or.inr (by omega)
    | listenFails g =>
      simp only [step, newServer] at h
      split at h
      · simp at h
      · simp only [Res.ok.injEq] at h
        obtain ⟨rfl, -⟩ := h
        simp only [List.mem_append, List.mem_singleton, Prod.mk.injEq] at hv
        rcases hv with hv | hv
        · exact Or.inl hv
        · exact Or.inr (by omega)
    | ok g =>
      simp only [step, newServer] at h
      split at h
      · simp at h
      · simp only [Res.ok.injEq] at h
        obtain ⟨rfl, -⟩ := h
        simp only [List.mem_append, List.mem_singleton, Prod.mk.injEq] at hv
        rcases hv with hv | hv
        · exact Or.inl hv
        · exact Or.inr (by omega)
  | listen s b =>
    obtain ⟨v', -, h⟩ := serve_ok h
    rcases listen_ok h with ⟨-, rfl, -⟩ | ⟨-, rfl, -⟩ | ⟨j, p, y, -, -, hw, -⟩
    · exact Or.inl hv
    · exact Or.inl hv
    · unfold watch at hw
      split at hw
      · simp only [Res.ok.injEq] at hw; obtain ⟨rfl, -⟩ := hw; exact Or.inl hv
      · split at hw
        · simp at hw
        · split at hw
          · simp only [Res.ok.injEq] at hw; obtain ⟨rfl, -⟩ := hw; exact Or.inl hv
          · simp at hw
  | stop s =>
    obtain ⟨v', -, h⟩ := serve_ok h
    unfold stopListening at h
    split at h
    · simp at h
    · split at h
      · simp at h
      · simp only [Res.ok.injEq] at h; obtain ⟨rfl, -⟩ := h; rw [stop_servers] at hv; exact Or.inl hv
  | shut s =>
    obtain ⟨v', -, h⟩ := serve_ok h
    unfold closeServer at h
    split at h
    · simp only [Res.ok.injEq] at h; obtain ⟨rfl, -⟩ := h; exact Or.inl hv
    · split at h
      · simp at h
      · rw [close_servers (shut_ok h).1] at hv; exact Or.inl hv
  | dropServer t =>
    obtain ⟨v', -, h⟩ := serve_ok h
    unfold dropServer at h
    split at h
    · simp only [Res.ok.injEq] at h; obtain ⟨rfl, -⟩ := h; exact Or.inl (List.mem_filter.1 hv).1
    · split at h
      · simp at h
      · split at h
        · rename_i u y hu
          simp only [Res.ok.injEq] at h
          obtain ⟨rfl, -⟩ := h
          obtain ⟨u', hc, rfl, -⟩ := destroy_ok hu
          have : (s, v) ∈ u'.servers := (List.mem_filter.1 hv).1
          rw [close_servers hc] at this
          exact Or.inl this
        · rename_i hr; exact (hr _ _ h).elim
  | ready g r =>
    obtain ⟨j, p, hj, hp, ⟨-, rfl, -⟩ | ⟨s, v, -, ⟨-, rfl, -⟩ | ⟨f, -, -, rfl, -⟩⟩⟩ := ready_ok h
    · exact Or.inl hv
    · exact Or.inl hv
    · rw [stop_opens] at hv
      have : _ ∈ (stopWatching w j p).servers := hv
      rw [stop_servers] at this; exact Or.inl this
  | connect j =>
    cases j with
    | noSocket => simp only [step, connect, Res.ok.injEq] at h; obtain ⟨rfl, -⟩ := h; exact Or.inl hv
    | fails g =>
      simp only [step, connect] at h
      split at h
      · simp at h
      · split at h
        · simp only [Res.ok.injEq] at h; obtain ⟨rfl, -⟩ := h; exact Or.inl hv
        · split at h
          · simp at h
          · rename_i u hu
            simp only [Res.ok.injEq] at h; obtain ⟨rfl, -⟩ := h
            rw [close_servers hu] at hv
            exact Or.inl hv
    | ok g =>
      simp only [step, connect] at h
      split at h
      · simp at h
      · split at h <;>
        · simp only [Res.ok.injEq] at h; obtain ⟨rfl, -⟩ := h; exact Or.inl hv
  | watch j b =>
    obtain ⟨p, hp, -, hw⟩ := use_ok h
    unfold watch at hw
    split at hw
    · simp only [Res.ok.injEq] at hw; obtain ⟨rfl, -⟩ := hw; exact Or.inl hv
    · split at hw
      · simp at hw
      · split at hw
        · simp only [Res.ok.injEq] at hw; obtain ⟨rfl, -⟩ := hw; exact Or.inl hv
        · simp at hw
  | unwatch j =>
    obtain ⟨p, hp, -, h⟩ := use_ok h
    simp only [Res.ok.injEq] at h
    obtain ⟨rfl, -⟩ := h
    rw [stop_servers] at hv
    exact Or.inl hv
  | close j =>
    obtain ⟨p, hp, -, h⟩ := use_ok h
    rw [close_servers (shut_ok h).1] at hv
    exact Or.inl hv
  | destroy j =>
    obtain ⟨p, hp, -, h⟩ := use_ok h
    obtain ⟨u', hc, rfl, -⟩ := destroy_ok h
    have : (s, v) ∈ u'.servers := hv
    rw [close_servers hc] at this
    exact Or.inl this
  | move j =>
    obtain ⟨p, hp, -, h⟩ := use_ok h
    simp only [moved, Res.ok.injEq] at h
    obtain ⟨rfl, -⟩ := h
    exact Or.inl hv

/-- Only a callback of the watcher gives a client to a server. -/
theorem accepted_ready {w w' : World} {a : Act} {x : List Seen} {s j : Nat} (hm : ∀ i, a ≠ .move i) (h : step w a = .ok w' x)
    (hc : .accepted s j ∈ x) : ∃ g r, a = .ready g r := by
  cases a with
  | ready g r => exact ⟨g, r, rfl⟩
  | server b =>
    cases b <;> simp only [step, newServer] at h <;> (try split at h) <;> simp only [Res.ok.injEq, reduceCtorEq] at h <;> (obtain ⟨-, rfl⟩ := h; simp at hc)
  | listen s b =>
    obtain ⟨v, -, h⟩ := serve_ok h
    rcases listen_ok h with ⟨-, -, rfl⟩ | ⟨-, -, rfl⟩ | ⟨_, _, _, -, -, -, rfl⟩ <;> simp at hc
  | stop s =>
    obtain ⟨v, -, h⟩ := serve_ok h
    unfold stopListening at h
    split at h
    · simp at h
    · split at h <;> simp only [Res.ok.injEq, reduceCtorEq] at h
      obtain ⟨-, rfl⟩ := h; simp at hc
  | shut s =>
    obtain ⟨v, -, h⟩ := serve_ok h
    unfold closeServer at h
    split at h
    · simp only [Res.ok.injEq] at h; obtain ⟨-, rfl⟩ := h; simp at hc
    · split at h
      · simp at h
      · rw [(shut_ok h).2] at hc; simp at hc
  | dropServer s =>
    obtain ⟨v, -, h⟩ := serve_ok h
    unfold dropServer at h
    split at h
    · simp only [Res.ok.injEq] at h; obtain ⟨-, rfl⟩ := h; simp at hc
    · split at h
      · simp at h
      · split at h
        · rename_i hu
          simp only [Res.ok.injEq] at h
          obtain ⟨-, rfl⟩ := h
          obtain ⟨_, -, -, rfl⟩ := destroy_ok hu
          simp at hc
        · rename_i hr; exact (hr _ _ h).elim
  | connect j =>
    cases j <;> simp only [step, connect] at h <;> (try split at h) <;> (try split at h) <;> (try split at h) <;>
      simp only [Res.ok.injEq, reduceCtorEq] at h <;> (obtain ⟨-, rfl⟩ := h; simp at hc)
  | watch j b =>
    obtain ⟨o, -, -, h⟩ := use_ok h
    unfold watch at h
    split at h
    · simp only [Res.ok.injEq] at h; obtain ⟨-, rfl⟩ := h; simp at hc
    · split at h
      · simp at h
      · split at h <;> simp only [Res.ok.injEq, reduceCtorEq] at h
        obtain ⟨-, rfl⟩ := h; simp at hc
  | unwatch j => obtain ⟨o, -, -, h⟩ := use_ok h; simp only [Res.ok.injEq] at h; obtain ⟨-, rfl⟩ := h; simp at hc
  | close j => obtain ⟨o, -, -, h⟩ := use_ok h; rw [(shut_ok h).2] at hc; simp at hc
  | destroy j => obtain ⟨o, -, -, h⟩ := use_ok h; obtain ⟨_, -, -, rfl⟩ := destroy_ok h; simp at hc
  | move j => exact absurd rfl (hm j)

theorem deaf_step {w w' : World} {a : Act} {x : List Seen} {s : Nat} (hk : Inv w) (hF : Faithful w) (hm : ∀ i, a ≠ .move i) (h : step w a = .ok w' x)
    (hd : Deaf w s) (ha : ∀ b, a ≠ .listen s b) : Deaf w' s ∧ ∀ j, .accepted s j ∉ x := by
  constructor
  · refine ⟨Nat.lt_of_lt_of_le hd.1 (step_next h), ?_⟩
    intro v i o' hv hvi ho'
    have hv0 : (s, v) ∈ w.servers := (server_new h hv).resolve_right (by have := hd.1; omega)
    rcases step_objs hk hm h ho' with ⟨-, h1⟩ | ⟨o, ho, ht⟩
    · exact h1
    · have h0 := hd.2 v i o hv0 hvi ho
      rcases ht with rfl | rfl | rfl | ⟨-, -, ⟨b, rfl⟩ | ⟨t, b, u, rfl, hu, hui⟩⟩
      · exact h0
      · rfl
      · rfl
      · obtain ⟨p, -, hs, -⟩ := use_ok h
        simp only [World.ofServer, List.any_eq_false, decide_eq_true_eq] at hs
        exact absurd hvi (hs _ hv0)
      · have h1 := find_server hk hv0 hvi
        rw [find_server hk hu hui] at h1
        simp only [Option.some.injEq, Prod.mk.injEq] at h1
        exact absurd (by rw [h1.1]) (ha b)
  · intro j hc
    obtain ⟨g, r, rfl⟩ := accepted_ready hm h hc
    obtain ⟨i, p, hj, hp, ⟨hn, -, rfl⟩ | ⟨t, v, hs', ⟨-, -, rfl⟩ | ⟨f, -, -, -, rfl⟩⟩⟩ := ready_ok h
    · simp at hc
    · simp at hc
    · simp only [List.mem_singleton, Seen.accepted.injEq] at hc
      obtain ⟨rfl, -⟩ := hc
      obtain ⟨o, ho, -, hw⟩ := hF _ hj
      have h1 : v.sock = some i := by simpa using List.find?_some hs'
      have := hd.2 v i o (List.mem_of_find?_eq_some hs') h1 ho
      rw [this] at hw; cases hw

theorem deaf_run {w w' : World} {as : List Act} {x : List Seen} {s : Nat} (hk : Inv w) (hF : Faithful w) (hm : still as) (ha : unheard s as)
    (hs : Deaf w s) (h : run w as = .ok w' x) (j : Nat) : .accepted s j ∉ x := by
  induction as generalizing w x with
  | nil => simp only [run, Res.ok.injEq] at h; rw [← h.2]; simp
  | cons a as ih =>
    obtain ⟨w1, x1, y, h1, h2, rfl⟩ := run_cons h
    have hm1 : ∀ i, a ≠ .move i := fun i hc => hm i (hc ▸ List.mem_cons_self)
    have hg := good_step hk a
    rw [h1] at hg
    obtain ⟨hs1, hc1⟩ := deaf_step hk hF hm1 h1 hs (fun b hc => ha b (hc ▸ List.mem_cons_self))
    have := ih hg.1 (hg.2 hm1 hF) (fun i hi => hm i (List.mem_cons_of_mem _ hi)) (fun b hb => ha b (List.mem_cons_of_mem _ hb)) hs1 h2
    simp [hc1 j, this]

/-- A server gives one client to its callback, and none after it until it is asked to listen again. -/
theorem C102_one_client_partial {as bs : List Act} {a : Act} {s j : Nat} {w1 w2 w : World} {x y z : List Seen} (hm : still (as ++ a :: bs))
    (h1 : run World.init as = .ok w1 x) (h2 : step w1 a = .ok w2 y) (hc : .accepted s j ∈ y) (ha : unheard s bs) (h : run w2 bs = .ok w z) :
    y = [.accepted s j] ∧ ∀ k, .accepted s k ∉ z := by
  have hk := inv_run inv_init h1
  have hF := faithful_run inv_init faithful_init h1 (fun i hi => hm i (List.mem_append_left _ hi))
  have hm1 : ∀ i, a ≠ .move i := fun i hi => hm i (List.mem_append_right _ (hi ▸ List.mem_cons_self))
  have hg := good_step hk a
  rw [h2] at hg
  obtain ⟨g, r, rfl⟩ := accepted_ready hm1 h2 hc
  obtain ⟨i, p, hj, hp, ⟨hn, -, rfl⟩ | ⟨t, v, hs', ⟨-, -, rfl⟩ | ⟨f, -, -, hw2, rfl⟩⟩⟩ := ready_ok h2
  · simp at hc
  · simp at hc
  · simp only [List.mem_singleton, Seen.accepted.injEq] at hc
    obtain ⟨rfl, rfl⟩ := hc
    refine ⟨rfl, deaf_run hg.1 (hg.2 hm1 hF) (fun i hi => hm i (List.mem_append_right _ (List.mem_cons_of_mem _ hi))) ha ⟨?_, ?_⟩ h⟩
    · exact Nat.lt_of_lt_of_le (hk.sbelow _ (List.mem_of_find?_eq_some hs')) (step_next h2)
    · intro u k o hu huk ho
      have hu0 : (s, u) ∈ w1.servers := (server_new h2 hu).resolve_right (by
        have := hk.sbelow _ (List.mem_of_find?_eq_some hs'); simp only at this; omega)
      have e := key_inj hk.skeys hu0 (List.mem_of_find?_eq_some hs')
      subst e
      have h3 : u.sock = some i := by simpa using List.find?_some hs'
      rw [h3] at huk
      obtain rfl := Option.some.inj huk
      have h4 : (i, { p with watching := false }) ∈ w2.objs := by
        rw [hw2, stop_opens]
        exact List.mem_append_left _ (stop_obj (hk.obj_iff.1 hp))
      rw [key_inj hg.1.keys ho h4]

example : ∃ w1 x w2, run World.init [.server (.ok 3), .listen 1 true] = .ok w1 x ∧ step w1 (.ready 3 (some 4)) = .ok w2 [.accepted 1 2] ∧
    ∃ w z, run w2 [.watch 2 true, .ready 4 none] = .ok w z := ⟨_, _, _, rfl, rfl, _, _, rfl⟩

/-- After StopListening, Close or the destruction of a server, its callback does not run until it is asked to listen again. -/
theorem C102_mute_partial {as bs : List Act} {a : Act} {s : Nat} {w1 w : World} {x z : List Seen} (hm : still (as ++ a :: bs)) (he : Mutes s a)
    (h1 : run World.init as = .ok w1 x) (h : run World.init (as ++ a :: bs) = .ok w z) (ha : unheard s bs) :
    ∃ y, z = x ++ y ∧ ∀ j, .accepted s j ∉ y := by
  obtain ⟨w1', x', y, h1', h2, rfl⟩ := run_append h
  rw [h1, Res.ok.injEq] at h1'
  obtain ⟨rfl, rfl⟩ := h1'
  have hk := inv_run inv_init h1
  have hF := faithful_run inv_init faithful_init h1 (fun i hi => hm i (List.mem_append_left _ hi))
  obtain ⟨w2, x2, y2, h3, h4, rfl⟩ := run_cons h2
  have hg := good_step hk a
  rw [h3] at hg
  have hm' : ∀ i, a ≠ .move i := by intro j hj; subst hj; cases he
  refine ⟨_, rfl, ?_⟩
  have key : Deaf w2 s ∧ x2 = [] := by
    cases he with
    | stop =>
      obtain ⟨v, hv, h5⟩ := serve_ok h3
      have hv' := hk.srv_iff.1 hv
      refine ⟨⟨Nat.lt_of_lt_of_le (hk.sbelow _ hv') (step_next h3), ?_⟩, ?_⟩
      · intro u k o hu huk ho
        have hu0 : (s, u) ∈ w1.servers := (server_new h3 hu).resolve_right (by have := hk.sbelow _ hv'; simp only at this; omega)
        obtain rfl := key_inj hk.skeys hu0 hv'
        obtain ⟨p, hp⟩ := hk.live _ hv' k huk
        simp only [stopListening, huk, hk.obj_iff.2 hp, Res.ok.injEq] at h5
        obtain ⟨rfl, -⟩ := h5
        rw [key_inj hg.1.keys ho (stop_obj hp)]
      · unfold stopListening at h5
        split at h5
        · simp at h5
        · split at h5 <;> simp only [Res.ok.injEq, reduceCtorEq] at h5
          exact h5.2.symm
    | shut =>
      obtain ⟨v, hv, h5⟩ := serve_ok h3
      have hv' := hk.srv_iff.1 hv
      refine ⟨⟨Nat.lt_of_lt_of_le (hk.sbelow _ hv') (step_next h3), ?_⟩, ?_⟩
      · intro u k o hu huk ho
        have hu0 : (s, u) ∈ w1.servers := (server_new h3 hu).resolve_right (by have := hk.sbelow _ hv'; simp only at this; omega)
        obtain rfl := key_inj hk.skeys hu0 hv'
        obtain ⟨p, hp⟩ := hk.live _ hv' k huk
        simp only [closeServer, huk, hk.obj_iff.2 hp] at h5
        obtain ⟨w3, hc3, -, -, hin⟩ := close_some hk hp
        rw [(shut_ok h5).1] at hc3
        obtain rfl := Option.some.inj hc3
        rw [key_inj hg.1.keys ho hin]
      · unfold closeServer at h5
        split at h5
        · simp only [Res.ok.injEq] at h5; exact h5.2.symm
        · split at h5
          · simp at h5
          · exact (shut_ok h5).2
    | drop =>
      obtain ⟨v, hv, h5⟩ := serve_ok h3
      have hv' := hk.srv_iff.1 hv
      refine ⟨⟨Nat.lt_of_lt_of_le (hk.sbelow _ hv') (step_next h3), ?_⟩, ?_⟩
      · intro u k o hu huk ho
        have hu0 : (s, u) ∈ w1.servers := (server_new h3 hu).resolve_right (by have := hk.sbelow _ hv'; simp only at this; omega)
        exact absurd ho (drop_gone hk h3 hu0 huk o)
      · unfold dropServer at h5
        split at h5
        · simp only [Res.ok.injEq] at h5; exact h5.2.symm
        · split at h5
          · simp at h5
          · split at h5
            · rename_i hu
              simp only [Res.ok.injEq] at h5
              obtain ⟨_, -, -, rfl⟩ := destroy_ok hu
              exact h5.2.symm
            · rename_i hr; exact (hr _ _ h5).elim
  obtain ⟨hd, rfl⟩ := key
  intro j
  simpa using deaf_run hg.1 (hg.2 hm' hF) (fun i hi => hm i (List.mem_append_right _ (List.mem_cons_of_mem _ hi))) ha hd h4 j

example : ∃ w z, run World.init ([.server (.ok 3), .listen 1 true] ++ .shut 1 :: [.connect (.ok 3)]) = .ok w z := ⟨_, _, rfl⟩

/-- A server that could not be made keeps no descriptor, and says so when it is asked to listen. -/
theorem C102_unbound {as : List Act} {w : World} {x : List Seen} (h : run World.init as = .ok w x) {b : Bound} (hb : ∀ f, b ≠ .ok f) {w' : World}
    {y : List Seen} (hs : step w (.server b) = .ok w' y) :
    ∃ s, y = [.server s] ∧ w'.files = w.files ∧ w'.objs = w.objs ∧ ∀ started, step w' (.listen s started) = .ok w' [.says false] := by
  have hk := inv_run inv_init h
  have hg := good_step hk (.server b)
  rw [hs] at hg
  have key : w' = { w with servers := w.servers ++ [(w.next, ⟨none, true⟩)], next := w.next + 1 } ∧ y = [.server w.next] := by
    cases b with
    | noSocket => simp only [step, newServer, Res.ok.injEq] at hs; exact ⟨hs.1.symm, hs.2.symm⟩
    | bindFails g =>
      simp only [step, newServer] at hs
      split at hs
      · simp at hs
      · rename_i hn
        rw [closes_opens_eq hk hn] at hs
        simp only [Res.ok.injEq] at hs; exact ⟨hs.1.symm, hs.2.symm⟩
    | listenFails g =>
      simp only [step, newServer] at hs
      split at hs
      · simp at hs
      · rename_i hn
        rw [closes_opens_eq hk hn] at hs
        simp only [Res.ok.injEq] at hs; exact ⟨hs.1.symm, hs.2.symm⟩
    | ok f => exact absurd rfl (hb f)
  obtain ⟨rfl, rfl⟩ := key
  refine ⟨_, rfl, rfl, rfl, fun started => ?_⟩
  have : World.srv { w with servers := w.servers ++ [(w.next, ⟨none, true⟩)], next := w.next + 1 } w.next = some ⟨none, true⟩ :=
    hg.1.srv_iff.2 (List.mem_append_right _ (List.mem_singleton.2 rfl))
  simp only [step, serve, this, startListening]

example : step World.init (.server (.bindFails 3)) = .ok ⟨[], 1, [], [], [(0, ⟨none, true⟩)], []⟩ [.server 0] := by decide +kernel

/-- StopListening on a server that could not be made, as TestChannelTransport::CleanUp calls it, uses an empty pointer. -/
theorem C102_unbound_violated : run World.init [.server (.bindFails 3), .listen 0 true, .stop 0] = .null := by decide +kernel

/-- A server that was made says that it listens, and the watcher knows it; provided that it was not closed and that its descriptor
is in range. Nothing else changes. -/
theorem C102_listens_partial {as : List Act} {w : World} {x : List Seen} (h : run World.init as = .ok w x) {s i f : Nat} {v : Srv} (hm : still as)
    (hv : (s, v) ∈ w.servers) (hi : v.sock = some i) {b : Bool} (ho : (i, (⟨some f, b⟩ : Obj)) ∈ w.objs) (hf : f < 1024) (started : Bool) :
    ∃ w', step w (.listen s started) = .ok w' [.says true] ∧ (f, i) ∈ w'.watch ∧ w'.files = w.files ∧ w'.servers = w.servers := by
  have hk := inv_run inv_init h
  have hc : v.callback = true := hk.calls _ hv
  simp only [step, serve, hk.srv_iff.2 hv, startListening, hi, hc, if_true, hk.obj_iff.2 ho, watch]
  cases b with
  | true => exact ⟨w, rfl, (C102_watched_partial hm h f i).2 ho, rfl, rfl⟩
  | false =>
    simp only [Bool.false_eq_true, if_false, if_pos hf]
    exact ⟨_, rfl, List.mem_cons_self, rfl, rfl⟩

/-- The server says that it listens although the thread of the watcher could not be started; and a server that was closed, or
whose descriptor is above 1023, sets a bit outside of the set of descriptors. -/
theorem C102_listens_violated : (∃ w, run World.init [.server (.ok 3), .listen 1 false] = .ok w [.server 1, .says true]) ∧
    run World.init [.server (.ok 3), .shut 1, .listen 1 true] = .wild ∧
    run World.init [.server (.ok 1024), .listen 1 true] = .wild := ⟨⟨_, rfl⟩, by decide +kernel, by decide +kernel⟩

/-- Watching a socket says what the watcher said, and then the watcher knows the socket. -/
theorem C102_watch_partial {as : List Act} {w w' : World} {x y : List Seen} (h : run World.init as = .ok w x) {i : Nat} {o : Obj} {started : Bool}
    (ho : (i, o) ∈ w.objs) (hn : o.watching = false) (hw : step w (.watch i started) = .ok w' y) :
    y = [.says started] ∧ ∃ f, o.fd = some f ∧ (f, i) ∈ w'.watch := by
  have hk := inv_run inv_init h
  obtain ⟨p, hp, -, hw⟩ := use_ok hw
  have := hk.obj_iff.2 ho
  rw [hp] at this
  obtain rfl := Option.some.inj this
  unfold watch at hw
  rw [if_neg (by simp [hn])] at hw
  split at hw
  · simp at hw
  · rename_i f hf
    split at hw
    · simp only [Res.ok.injEq] at hw
      obtain ⟨rfl, rfl⟩ := hw
      exact ⟨rfl, f, hf, List.mem_cons_self⟩
    · simp at hw

example : ∃ w x w' y, run World.init [.connect (.ok 3)] = .ok w x ∧ step w (.watch 0 true) = .ok w' y := ⟨_, _, _, _, rfl, rfl⟩

/-- A call that says that it failed leaves the socket watched, its callback runs all the same, and a second call fails although
the watcher could now be started. -/
theorem C102_watch_violated : ∃ w, run World.init [.connect (.ok 3), .watch 0 false, .ready 3 none, .watch 0 true] =
    .ok w [.made 0, .says false, .called 0, .says false] := ⟨_, rfl⟩

/-- The connector returns an open socket exactly if the kernel connected it; a failure leaves nothing open. This is so for every
descriptor but 0. -/
theorem C102_connect_partial {as : List Act} {w w' : World} {x y : List Seen} (h : run World.init as = .ok w x) {r : Joined}
    (h0 : r ≠ .ok 0 ∧ r ≠ .fails 0) (hc : step w (.connect r) = .ok w' y) :
    ∃ i, y = [.made i] ∧ (∀ o, (i, o) ∉ w.objs) ∧
      (∀ f, r = .ok f → (i, (⟨some f, false⟩ : Obj)) ∈ w'.objs ∧ f ∈ w'.joined ∧ w'.files = f :: w.files) ∧
      ((∀ f, r ≠ .ok f) → (i, (⟨none, false⟩ : Obj)) ∈ w'.objs ∧ w'.files = w.files) := by
  have hk := inv_run inv_init h
  have hnew : ∀ o, (w.next, o) ∉ w.objs := fun o ho => absurd (hk.below _ ho) (Nat.lt_irrefl _)
  cases r with
  | noSocket =>
    simp only [step, connect, Res.ok.injEq] at hc
    obtain ⟨rfl, rfl⟩ := hc
    exact ⟨_, rfl, hnew, by simp, fun _ => ⟨List.mem_append_right _ (List.mem_singleton.2 rfl), rfl⟩⟩
  | fails g =>
    simp only [step, connect] at hc
    split at hc
    · simp at hc
    · rename_i hg
      rw [if_neg (by intro hg0; exact h0.2 (by rw [show g = 0 by omega]))] at hc
      have hmem : (w.next, (⟨some g, false⟩ : Obj)) ∈ ((w.opens g).add (some g)).objs := List.mem_append_right _ (List.mem_singleton.2 rfl)
      obtain ⟨u, e, h1, -, hin⟩ := close_some (add_inv hk hg) hmem
      rw [e] at hc
      simp only [Res.ok.injEq] at hc
      obtain ⟨rfl, rfl⟩ := hc
      refine ⟨_, rfl, hnew, by simp, fun _ => ⟨hin, ?_⟩⟩
      simp only [close] at e
      rw [if_pos (by simp [World.opens, World.add])] at e
      simp only [Option.some.injEq] at e
      rw [← e]
      show List.filter _ (stopWatching _ _ _).files = _
      rw [stop_files]
      show List.filter _ (g :: w.files) = _
      rw [List.filter_cons_of_neg (by simp)]
      exact List.filter_eq_self.2 fun x hx => by simpa using fun hc : x = g => hg (hc ▸ hx)
  | ok g =>
    simp only [step, connect] at hc
    split at hc
    · simp at hc
    · rename_i hg
      rw [if_neg (by intro hg0; exact h0.1 (by rw [show g = 0 by omega]))] at hc
      simp only [Res.ok.injEq] at hc
      obtain ⟨rfl, rfl⟩ := hc
      refine ⟨_, rfl, hnew, ?_, fun hn => absurd rfl (hn g)⟩
      intro f hf
      simp only [Joined.ok.injEq] at hf
      subst hf
      exact ⟨List.mem_append_right _ (List.mem_singleton.2 rfl), List.mem_cons_self, rfl⟩

/-- Descriptor 0 is a descriptor like others, for instance when the program was started with its input closed. The connector takes
it for a failure and returns an open socket that nothing connected. -/
theorem C102_connect_violated : ∃ w, step World.init (.connect (.ok 0)) = .ok w [.made 0] ∧ (0, (⟨some 0, false⟩ : Obj)) ∈ w.objs ∧ w.joined = [] :=
  ⟨_, rfl, by decide +kernel, by decide +kernel⟩

end Verif.Fd
