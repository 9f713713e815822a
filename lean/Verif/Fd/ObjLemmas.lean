import Verif.Fd.StepLemmas

/-! How one socket changes. -/
namespace Verif.Fd

/-- What a step can make of a socket. -/
def Turns (w : World) (a : Act) (i : Nat) (o o' : Obj) : Prop :=
  o' = o ∨ o' = ⟨none, false⟩ ∨ o' = { o with watching := false } ∨
    (o' = { o with watching := true } ∧ o.fd ≠ none ∧
      ((∃ b, a = .watch i b) ∨ ∃ s b v, a = .listen s b ∧ (s, v) ∈ w.servers ∧ v.sock = some i))

theorem stop_turns {w : World} {a : Act} {j : Nat} {p : Obj} (hp : w.obj j = some p) (hk : Inv w) {i : Nat} {o' : Obj}
    (h : (i, o') ∈ (stopWatching w j p).objs) : ∃ o, (i, o) ∈ w.objs ∧ Turns w a i o o' := by
  unfold stopWatching at h
  split at h
  · rcases mem_put.1 h with ⟨_, h1⟩ | ⟨h1, _⟩
    · exact ⟨o', h1, Or.inl rfl⟩
    · simp only [Prod.mk.injEq] at h1
      obtain ⟨rfl, rfl⟩ := h1
      exact ⟨p, hk.obj_iff.1 hp, Or.inr (Or.inr (Or.inl rfl))⟩
  · exact ⟨o', h, Or.inl rfl⟩

theorem close_turns {w w' : World} {a : Act} {j : Nat} {p : Obj} (hp : w.obj j = some p) (hk : Inv w) (hc : close w j p = some w') {i : Nat} {o' : Obj}
    (h : (i, o') ∈ w'.objs) : ∃ o, (i, o) ∈ w.objs ∧ Turns w a i o o' := by
  unfold close at hc
  split at hc
  · simp only [Option.some.injEq] at hc; subst hc; exact ⟨o', h, Or.inl rfl⟩
  · split at hc
    · simp only [Option.some.injEq] at hc
      subst hc
      rcases mem_put.1 h with ⟨_, h1⟩ | ⟨h1, _⟩
      · exact stop_turns hp hk h1
      · simp only [Prod.mk.injEq] at h1
        obtain ⟨rfl, rfl⟩ := h1
        exact ⟨p, hk.obj_iff.1 hp, Or.inr (Or.inl rfl)⟩
    · simp at hc

theorem watch_turns {w w' : World} {a : Act} {j : Nat} {p : Obj} {b : Bool} {x : List Seen} (hp : w.obj j = some p) (hk : Inv w)
    (ha : (∃ b, a = .watch j b) ∨ ∃ s b v, a = .listen s b ∧ (s, v) ∈ w.servers ∧ v.sock = some j)
    (hc : watch w j p b = .ok w' x) {i : Nat} {o' : Obj}
    (h : (i, o') ∈ w'.objs) : ∃ o, (i, o) ∈ w.objs ∧ Turns w a i o o' := by
  unfold watch at hc
  split at hc
  · simp only [Res.ok.injEq] at hc; obtain ⟨rfl, -⟩ := hc; exact ⟨o', h, Or.inl rfl⟩
  · split at hc
    · simp at hc
    · rename_i f hf
      split at hc
      · simp only [Res.ok.injEq] at hc
        obtain ⟨rfl, -⟩ := hc
        rcases mem_put.1 h with ⟨_, h1⟩ | ⟨h1, _⟩
        · exact ⟨o', h1, Or.inl rfl⟩
        · simp only [Prod.mk.injEq] at h1
          obtain ⟨rfl, rfl⟩ := h1
          exact ⟨p, hk.obj_iff.1 hp, Or.inr (Or.inr (Or.inr ⟨by rw [hf], by simp [hf], ha⟩))⟩
      · simp at hc

theorem add_turns {w : World} {f : Option Nat} {i : Nat} {o' : Obj} (h : (i, o') ∈ (w.add f).objs) :
    (i, o') ∈ w.objs ∨ (i = w.next ∧ o'.watching = false) := by
  simp only [World.add, List.mem_append, List.mem_singleton, Prod.mk.injEq] at h
  rcases h with h | ⟨h1, h2⟩
  · exact Or.inl h
  · exact Or.inr ⟨h1, by rw [h2]⟩

theorem use_ok {w w' : World} {i : Nat} {f : Obj → Res} {x : List Seen} (h : use w i f = .ok w' x) :
    ∃ o, w.obj i = some o ∧ w.ofServer i = false ∧ f o = .ok w' x := by
  unfold use at h
  split at h
  · simp at h
  · rename_i o ho
    split at h
    · simp at h
    · rename_i hs; exact ⟨o, ho, by simpa using hs, h⟩

theorem serve_ok {w w' : World} {s : Nat} {f : Srv → Res} {x : List Seen} (h : serve w s f = .ok w' x) :
    ∃ v, w.srv s = some v ∧ f v = .ok w' x := by
  unfold serve at h
  split at h
  · simp at h
  · rename_i v hv; exact ⟨v, hv, h⟩

theorem shut_ok {w w' : World} {i : Nat} {o : Obj} {x : List Seen}
    (h : (match close w i o with | none => Res.stray | some w' => .ok w' []) = .ok w' x) : close w i o = some w' ∧ x = [] := by
  cases hc : close w i o with
  | none => simp [hc] at h
  | some u => simp only [hc, Res.ok.injEq] at h; exact ⟨by rw [h.1], h.2.symm⟩

theorem destroy_ok {w w' : World} {i : Nat} {o : Obj} {x : List Seen} (h : destroy w i o = .ok w' x) :
    ∃ u, close w i o = some u ∧ w' = { u with objs := u.objs.filter (fun e => e.1 ≠ i) } ∧ x = [] := by
  unfold destroy at h
  cases hc : close w i o with
  | none => simp [hc] at h
  | some u => simp only [hc, Res.ok.injEq] at h; exact ⟨u, rfl, h.1.symm, h.2.symm⟩

/-- What can be said of a server's step on its socket. -/
theorem listen_ok {w w' : World} {v : Srv} {b : Bool} {x : List Seen} (h : startListening w v b = .ok w' x) :
    (v.sock = none ∧ w' = w ∧ x = [.says false]) ∨ (v.callback = false ∧ w' = w ∧ x = [.says false]) ∨
      ∃ i o y, v.sock = some i ∧ w.obj i = some o ∧ watch w i o b = .ok w' y ∧ x = [.says true] := by
  unfold startListening at h
  split at h
  · rename_i hn; simp only [Res.ok.injEq] at h; exact Or.inl ⟨hn, h.1.symm, h.2.symm⟩
  · rename_i i hi
    split at h
    · split at h
      · simp at h
      · rename_i o ho
        split at h
        · rename_i u y hw; simp only [Res.ok.injEq] at h; obtain ⟨rfl, rfl⟩ := h; exact Or.inr (Or.inr ⟨i, o, y, hi, ho, hw, rfl⟩)
        · rename_i hr; exact (hr _ _ h).elim
    · rename_i hc; simp only [Res.ok.injEq] at h; exact Or.inr (Or.inl ⟨by simpa using hc, h.1.symm, h.2.symm⟩)

/-- What can be said of a callback. -/
theorem ready_ok {w w' : World} {g : Nat} {r : Option Nat} {x : List Seen} (h : ready w g r = .ok w' x) :
    ∃ i o, (g, i) ∈ w.watch ∧ w.obj i = some o ∧
      ((w.servers.find? (fun e => e.2.sock = some i) = none ∧ w' = w ∧ x = [.called i]) ∨
        ∃ s v, w.servers.find? (fun e => e.2.sock = some i) = some (s, v) ∧
          ((r = none ∧ w' = w ∧ x = []) ∨
            ∃ f, r = some f ∧ f ∉ w.files ∧ w' = (stopWatching (w.opens f) i o).add (some f) ∧ x = [.accepted s w.next])) := by
  unfold ready at h
  split at h
  · simp at h
  · rename_i k i hf
    have hk : k = g := by simpa using List.find?_some hf
    subst hk
    split at h
    · simp at h
    · rename_i o ho
      refine ⟨i, o, List.mem_of_find?_eq_some hf, ho, ?_⟩
      split at h
      · rename_i s v hs
        refine Or.inr ⟨s, v, hs, ?_⟩
        unfold accept at h
        split at h
        · simp only [Res.ok.injEq] at h; exact Or.inl ⟨rfl, h.1.symm, h.2.symm⟩
        · rename_i f
          split at h
          · simp at h
          · rename_i hf'; simp only [Res.ok.injEq] at h; exact Or.inr ⟨f, rfl, hf', h.1.symm, h.2.symm⟩
      · rename_i hs; simp only [Res.ok.injEq] at h; exact Or.inl ⟨hs, h.1.symm, h.2.symm⟩

theorem stop_next (w : World) (i : Nat) (o : Obj) : (stopWatching w i o).next = w.next := by
  unfold stopWatching; split <;> rfl

theorem stop_servers (w : World) (i : Nat) (o : Obj) : (stopWatching w i o).servers = w.servers := by
  unfold stopWatching; split <;> rfl

theorem close_next {w w' : World} {i : Nat} {o : Obj} (h : close w i o = some w') : w'.next = w.next := by
  unfold close at h
  split at h
  · simp only [Option.some.injEq] at h; subst h; rfl
  · split at h
    · simp only [Option.some.injEq] at h
      subst h
      exact stop_next w i o
    · simp at h

theorem step_objs {w w' : World} {a : Act} {x : List Seen} (hk : Inv w) (hm : ∀ i, a ≠ .move i) (h : step w a = .ok w' x) {i : Nat} {o' : Obj}
    (ho : (i, o') ∈ w'.objs) : (w.next ≤ i ∧ o'.watching = false) ∨ ∃ o, (i, o) ∈ w.objs ∧ Turns w a i o o' := by
  cases a with
  | server b =>
    cases b with
    | noSocket => simp only [step, newServer, Res.ok.injEq] at h; obtain ⟨rfl, -⟩ := h; exact Or.inr ⟨o', ho, Or.inl rfl⟩
    | bindFails g =>
      simp only [step, newServer] at h
      split at h
      · simp at h
      · simp only [Res.ok.injEq] at h; obtain ⟨rfl, -⟩ := h; exact Or.inr ⟨o', ho, Or.inl rfl⟩
    | listenFails g =>
      simp only [step, newServer] at h
      split at h
      · simp at h
      · simp only [Res.ok.injEq] at h; obtain ⟨rfl, -⟩ := h; exact Or.inr ⟨o', ho, Or.inl rfl⟩
    | ok g =>
      simp only [step, newServer] at h
      split at h
      · simp at h
      · simp only [Res.ok.injEq] at h
        obtain ⟨rfl, -⟩ := h
        rcases add_turns (w := w.opens g) ho with h1 | ⟨h1, h2⟩
        · exact Or.inr ⟨o', h1, Or.inl rfl⟩
        · exact Or.inl ⟨Nat.le_of_eq h1.symm, h2⟩
  | listen s b =>
    obtain ⟨v, hv, h⟩ := serve_ok h
    rcases listen_ok h with ⟨-, rfl, -⟩ | ⟨-, rfl, -⟩ | ⟨j, p, y, hj, hp, hw, -⟩
    · exact Or.inr ⟨o', ho, Or.inl rfl⟩
    · exact Or.inr ⟨o', ho, Or.inl rfl⟩
    · exact Or.inr (watch_turns hp hk (Or.inr ⟨s, b, v, rfl, hk.srv_iff.1 hv, hj⟩) hw ho)
  | stop s =>
    obtain ⟨v, hv, h⟩ := serve_ok h
    unfold stopListening at h
    split at h
    · simp at h
    · split at h
      · simp at h
      · rename_i p hp
        simp only [Res.ok.injEq] at h
        obtain ⟨rfl, -⟩ := h
        exact Or.inr (stop_turns hp hk ho)
  | shut s =>
    obtain ⟨v, hv, h⟩ := serve_ok h
    unfold closeServer at h
    split at h
    · simp only [Res.ok.injEq] at h; obtain ⟨rfl, -⟩ := h; exact Or.inr ⟨o', ho, Or.inl rfl⟩
    · split at h
      · simp at h
      · rename_i p hp
        exact Or.inr (close_turns hp hk (shut_ok h).1 ho)
  | dropServer s =>
    obtain ⟨v, hv, h⟩ := serve_ok h
    unfold dropServer at h
    split at h
    · simp only [Res.ok.injEq] at h; obtain ⟨rfl, -⟩ := h; exact Or.inr ⟨o', ho, Or.inl rfl⟩
    · split at h
      · simp at h
      · rename_i p hp
        split at h
        · rename_i u y hu
          simp only [Res.ok.injEq] at h
          obtain ⟨rfl, -⟩ := h
          obtain ⟨u', hc, rfl, -⟩ := destroy_ok hu
          exact Or.inr (close_turns hp hk hc (List.mem_filter.1 ho).1)
        · rename_i hr; exact (hr _ _ h).elim
  | ready g r =>
    obtain ⟨j, p, hj, hp, h1 | ⟨s, v, hs, h1 | h1⟩⟩ := ready_ok h
    · obtain ⟨-, rfl, -⟩ := h1; exact Or.inr ⟨o', ho, Or.inl rfl⟩
    · obtain ⟨-, rfl, -⟩ := h1; exact Or.inr ⟨o', ho, Or.inl rfl⟩
    · obtain ⟨f, -, -, rfl, -⟩ := h1
      rw [stop_opens] at ho
      rcases add_turns ho with h1 | ⟨h1, h2⟩
      · exact Or.inr (stop_turns hp hk h1)
      · exact Or.inl ⟨Nat.le_of_eq (by rw [h1]; exact (stop_next w j p).symm), h2⟩
  | connect j =>
    cases j with
    | noSocket =>
      simp only [step, connect, Res.ok.injEq] at h
      obtain ⟨rfl, -⟩ := h
      rcases add_turns ho with h1 | ⟨h1, h2⟩
      · exact Or.inr ⟨o', h1, Or.inl rfl⟩
      · exact Or.inl ⟨Nat.le_of_eq h1.symm, h2⟩
    | fails g =>
      simp only [step, connect] at h
      split at h
      · simp at h
      · rename_i hg
        split at h
        · simp only [Res.ok.injEq] at h
          obtain ⟨rfl, -⟩ := h
          rcases add_turns (w := w.opens g) ho with h1 | ⟨h1, h2⟩
          · exact Or.inr ⟨o', h1, Or.inl rfl⟩
          · exact Or.inl ⟨Nat.le_of_eq h1.symm, h2⟩
        · split at h
          · simp at h
          · rename_i u hu
            simp only [Res.ok.injEq] at h
            obtain ⟨rfl, -⟩ := h
            have hm : (w.next, (⟨some g, false⟩ : Obj)) ∈ ((w.opens g).add (some g)).objs := List.mem_append_right _ (List.mem_singleton.2 rfl)
            obtain ⟨o, h1, h2⟩ := close_turns (a := .close 0) ((add_inv hk hg).obj_iff.2 hm) (add_inv hk hg) hu ho
            rcases add_turns (w := w.opens g) h1 with h3 | ⟨h3, h4⟩
            · refine Or.inr ⟨o, h3, ?_⟩
              rcases h2 with h2 | h2 | h2 | ⟨-, -, ⟨b, hb⟩ | ⟨_, _, _, hb, -⟩⟩
              · exact Or.inl h2
              · exact Or.inr (Or.inl h2)
              · exact Or.inr (Or.inr (Or.inl h2))
              · cases hb
              · cases hb
            · refine Or.inl ⟨Nat.le_of_eq h3.symm, ?_⟩
              rcases h2 with h2 | h2 | h2 | ⟨-, -, ⟨b, hb⟩ | ⟨_, _, _, hb, -⟩⟩
              · rw [h2]; exact h4
              · rw [h2]
              · rw [h2]
              · cases hb
              · cases hb
    | ok g =>
      simp only [step, connect] at h
      split at h
      · simp at h
      · rename_i hg
        split at h <;>
        · simp only [Res.ok.injEq] at h
          obtain ⟨rfl, -⟩ := h
          rcases add_turns (w := w.opens g) ho with h1 | ⟨h1, h2⟩
          · exact Or.inr ⟨o', h1, Or.inl rfl⟩
          · exact Or.inl ⟨Nat.le_of_eq h1.symm, h2⟩
  | watch j b =>
    obtain ⟨p, hp, -, h⟩ := use_ok h
    exact Or.inr (watch_turns hp hk (Or.inl ⟨b, rfl⟩) h ho)
  | unwatch j =>
    obtain ⟨p, hp, -, h⟩ := use_ok h
    simp only [Res.ok.injEq] at h
    obtain ⟨rfl, -⟩ := h
    exact Or.inr (stop_turns hp hk ho)
  | close j =>
    obtain ⟨p, hp, -, h⟩ := use_ok h
    exact Or.inr (close_turns hp hk (shut_ok h).1 ho)
  | destroy j =>
    obtain ⟨p, hp, -, h⟩ := use_ok h
    obtain ⟨u', hc, rfl, -⟩ := destroy_ok h
    exact Or.inr (close_turns hp hk hc (List.mem_filter.1 ho).1)
  | move j => exact absurd rfl (hm j)

theorem step_servers {w w' : World} {a : Act} {x : List Seen} (h : step w a = .ok w' x) {s : Nat} {v : Srv}
    (hv : (s, v) ∈ w.servers) : (s, v) ∈ w'.servers ∨ (a = .dropServer s ∧ (s, v) ∉ w'.servers) := by
  cases a with
  | server b =>
    cases b with
    | noSocket => simp only [step, newServer, Res.ok.injEq] at h; obtain ⟨rfl, -⟩ := h; exact Or.inl (List.mem_append_left _ hv)
    | bindFails g =>
      simp only [step, newServer] at h
      split at h
      · simp at h
      · simp only [Res.ok.injEq] at h; obtain ⟨rfl, -⟩ := h; exact Or.inl (List.mem_append_left _ hv)
    | listenFails g =>
      simp only [step, newServer] at h
      split at h
      · simp at h
      · simp only [Res.ok.injEq] at h; obtain ⟨rfl, -⟩ := h; exact Or.inl (List.mem_append_left _ hv)
    | ok g =>
      simp only [step, newServer] at h
      split at h
      · simp at h
      · simp only [Res.ok.injEq] at h; obtain ⟨rfl, -⟩ := h; exact Or.inl (List.mem_append_left _ hv)
  | listen s b =>
    obtain ⟨v', -, h⟩ := serve_ok h
    rcases listen_ok h with ⟨-, rfl, -⟩ | ⟨-, rfl, -⟩ | ⟨j, p, y, -, -, hw, -⟩
    · exact Or.inl hv
    · exact Or.inl hv
    · unfold watch at hw
      split at hw
      · simp only [Res.ok.injEq] at hw; obtain ⟨rfl, -⟩ := hw; exact Or.inl hv
      · split at hw
        · simp at hw
        · split at hw
          · simp only [Res.ok.injEq] at hw; obtain ⟨rfl, -⟩ := hw; exact Or.inl hv
          · simp at hw
  | stop s =>
    obtain ⟨v', -, h⟩ := serve_ok h
    unfold stopListening at h
    split at h
    · simp at h
    · split at h
      · simp at h
      · simp only [Res.ok.injEq] at h; obtain ⟨rfl, -⟩ := h; exact Or.inl (by rw [stop_servers]; exact hv)
  | shut s =>
    obtain ⟨v', -, h⟩ := serve_ok h
    unfold closeServer at h
    split at h
    · simp only [Res.ok.injEq] at h; obtain ⟨rfl, -⟩ := h; exact Or.inl hv
    · split at h
      · simp at h
      · exact Or.inl (by rw [close_servers (shut_ok h).1]; exact hv)
  | dropServer t =>
    obtain ⟨v', -, h⟩ := serve_ok h
    have key : w'.servers = w.servers.filter (fun e => e.1 ≠ t) := by
      unfold dropServer at h
      split at h
      · simp only [Res.ok.injEq] at h; obtain ⟨rfl, -⟩ := h; rfl
      · split at h
        · simp at h
        · split at h
          · rename_i u y hu
            simp only [Res.ok.injEq] at h
            obtain ⟨rfl, -⟩ := h
            obtain ⟨u', hc, rfl, -⟩ := destroy_ok hu
            show List.filter _ u'.servers = _
            rw [close_servers hc]
          · rename_i hr; exact (hr _ _ h).elim
    rw [key]
    by_cases hs : s = t
    · subst hs; exact Or.inr ⟨rfl, by simp⟩
    · exact Or.inl (List.mem_filter.2 ⟨hv, by simpa using hs⟩)
  | ready g r =>
    obtain ⟨j, p, hj, hp, h1 | ⟨s, v, hs, h1 | h1⟩⟩ := ready_ok h
    · obtain ⟨-, rfl, -⟩ := h1; exact Or.inl hv
    · obtain ⟨-, rfl, -⟩ := h1; exact Or.inl hv
    · obtain ⟨f, -, -, rfl, -⟩ := h1
      rw [stop_opens]
      left
      show _ ∈ (stopWatching w j p).servers
      rw [stop_servers]; exact hv
  | connect j =>
    cases j with
    | noSocket => simp only [step, connect, Res.ok.injEq] at h; obtain ⟨rfl, -⟩ := h; exact Or.inl hv
    | fails g =>
      simp only [step, connect] at h
      split at h
      · simp at h
      · split at h
        · simp only [Res.ok.injEq] at h; obtain ⟨rfl, -⟩ := h; exact Or.inl hv
        · split at h
          · simp at h
          · rename_i u hu
            simp only [Res.ok.injEq] at h; obtain ⟨rfl, -⟩ := h
            exact Or.inl (by rw [close_servers hu]; exact hv)
    | ok g =>
      simp only [step, connect] at h
      split at h
      · simp at h
      · split at h <;>
        · simp only [Res.ok.injEq] at h; obtain ⟨rfl, -⟩ := h; exact Or.inl hv
  | watch j b =>
    obtain ⟨p, hp, -, hw⟩ := use_ok h
    unfold watch at hw
    split at hw
    · simp only [Res.ok.injEq] at hw; obtain ⟨rfl, -⟩ := hw; exact Or.inl hv
    · split at hw
      · simp at hw
      · split at hw
        · simp only [Res.ok.injEq] at hw; obtain ⟨rfl, -⟩ := hw; exact Or.inl hv
        · simp at hw
  | unwatch j =>
    obtain ⟨p, hp, -, h⟩ := use_ok h
    simp only [Res.ok.injEq] at h
    obtain ⟨rfl, -⟩ := h
    exact Or.inl (by rw [stop_servers]; exact hv)
  | close j =>
    obtain ⟨p, hp, -, h⟩ := use_ok h
    exact Or.inl (by rw [close_servers (shut_ok h).1]; exact hv)
  | destroy j =>
    obtain ⟨p, hp, -, h⟩ := use_ok h
    obtain ⟨u', hc, rfl, -⟩ := destroy_ok h
    exact Or.inl (by show _ ∈ u'.servers; rw [close_servers hc]; exact hv)
  | move j =>
    obtain ⟨p, hp, -, h⟩ := use_ok h
    simp only [moved, Res.ok.injEq] at h
    obtain ⟨rfl, -⟩ := h
    exact Or.inl hv

/-- With a server goes its socket. -/
theorem drop_gone {w w' : World} {s : Nat} {x : List Seen} (hk : Inv w) (h : step w (.dropServer s) = .ok w' x) {v : Srv} {i : Nat}
    (hv : (s, v) ∈ w.servers) (hi : v.sock = some i) (o : Obj) : (i, o) ∉ w'.objs := by
  obtain ⟨v', hv', h⟩ := serve_ok h
  have : v' = v := key_inj hk.skeys (hk.srv_iff.1 hv') hv
  subst this
  unfold dropServer at h
  simp only [hi] at h
  split at h
  · simp at h
  · split at h
    · rename_i u y hu
      simp only [Res.ok.injEq] at h
      obtain ⟨rfl, -⟩ := h
      obtain ⟨u', hc, rfl, -⟩ := destroy_ok hu
      simp
    · rename_i hr; exact (hr _ _ h).elim

end Verif.Fd
