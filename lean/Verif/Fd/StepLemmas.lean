import Verif.Fd.Lemmas

/-! What each step keeps. -/
namespace Verif.Fd

/-- A result that keeps the invariants. `f` says whether the callbacks stay with the sockets. -/
def Good (w : World) (f : Prop) : Res → Prop
  | .ok w' _ => Inv w' ∧ (f → Faithful w → Faithful w')
  | .stray => False
  | .dangling => ¬ Faithful w
  | _ => True

theorem good_use {w : World} (h : Inv w) {f : Prop} {i : Nat} {k : Obj → Res}
    (hk : ∀ o, (i, o) ∈ w.objs → (∀ v ∈ w.servers, v.2.sock ≠ some i) → Good w f (k o)) : Good w f (use w i k) := by
  unfold use
  cases ho : w.obj i with
  | none => trivial
  | some o =>
    simp only
    by_cases hs : w.ofServer i = true
    · rw [if_pos hs]; trivial
    · rw [if_neg hs]
      refine hk o (h.obj_iff.1 ho) fun v hv hc => hs ?_
      simp only [World.ofServer, List.any_eq_true, decide_eq_true_eq]
      exact ⟨v, hv, hc⟩

theorem good_serve {w : World} (h : Inv w) {f : Prop} {s : Nat} {k : Srv → Res}
    (hk : ∀ v, (s, v) ∈ w.servers → Good w f (k v)) : Good w f (serve w s k) := by
  unfold serve
  cases hv : w.srv s with
  | none => trivial
  | some v => exact hk v (h.srv_iff.1 hv)

theorem good_watch {w : World} (h : Inv w) {f : Prop} {i : Nat} {o : Obj} (ho : (i, o) ∈ w.objs) (b : Bool) : Good w f (watch w i o b) := by
  unfold watch
  by_cases hw : o.watching = true
  · rw [if_pos hw]; exact ⟨h, fun _ hF => hF⟩
  · rw [if_neg hw]
    cases hf : o.fd with
    | none => trivial
    | some g =>
      simp only
      by_cases hg : g < 1024
      · rw [if_pos hg]; exact ⟨hf ▸ watch_inv h ho hf, fun _ hF => hf ▸ watch_faithful h hF ho hf⟩
      · rw [if_neg hg]; trivial

theorem good_close {w : World} (h : Inv w) {f : Prop} {i : Nat} {o : Obj} (ho : (i, o) ∈ w.objs) :
    Good w f (match close w i o with
      | none => .stray
      | some w' => .ok w' []) := by
  obtain ⟨w', e, h1, h2, -⟩ := close_some h ho
  rw [e]
  exact ⟨h1, fun _ => h2⟩

theorem close_servers {w w' : World} {i : Nat} {o : Obj} (h : close w i o = some w') : w'.servers = w.servers := by
  unfold close at h
  split at h
  · simp only [Option.some.injEq] at h; subst h; rfl
  · split at h
    · simp only [Option.some.injEq] at h
      subst h
      simp only [World.closes, World.put, stopWatching]
      split <;> rfl
    · simp at h

/-- A socket goes with its server. -/
theorem end_inv {w : World} (h : Inv w) {s i : Nat} {v : Srv} (hv : (s, v) ∈ w.servers) (hi : v.sock = some i) :
    ∀ u ∈ w.servers.filter (fun e => e.1 ≠ s), u.2.sock ≠ some i := by
  intro u hu hc
  obtain ⟨hu1, hu2⟩ := List.mem_filter.1 hu
  simp only [decide_eq_true_eq] at hu2
  have hn := h.socks
  obtain ⟨l1, l2, hl⟩ := List.append_of_mem hv
  rw [hl] at hn hu1
  simp only [List.filterMap_append, List.filterMap_cons, hi, List.nodup_append, List.nodup_cons, List.mem_filterMap, not_exists, not_and,
    List.mem_cons] at hn
  rcases List.mem_append.1 hu1 with h1 | h1
  · exact absurd rfl (hn.2.2 i ⟨_, h1, hc⟩ i (Or.inl rfl))
  · rcases List.mem_cons.1 h1 with h1 | h1
    · exact hu2 (by rw [h1])
    · exact hn.2.1.1 _ h1 hc

theorem closes_opens_eq {w : World} (h : Inv w) {g : Nat} (hg : g ∉ w.files) : (w.opens g).closes g = w := by
  have e1 : (g :: w.files).filter (fun x => decide (x ≠ g)) = w.files := by
    rw [List.filter_cons_of_neg (by simp)]
    exact List.filter_eq_self.2 fun x hx => by simpa using fun hc : x = g => hg (hc ▸ hx)
  have e2 : w.joined.filter (fun x => decide (x ≠ g)) = w.joined :=
    List.filter_eq_self.2 fun x hx => by simpa using fun hc : x = g => hg (hc ▸ h.joined x hx)
  simp only [World.closes, World.opens, e1, e2]

theorem stop_opens (w : World) (i : Nat) (o : Obj) (g : Nat) : stopWatching (w.opens g) i o = (stopWatching w i o).opens g := by
  unfold stopWatching
  split <;> rfl

theorem good_step {w : World} (h : Inv w) (a : Act) : Good w (∀ i, a ≠ .move i) (step w a) := by
  cases a with
  | server b =>
    have key : Inv { w with servers := w.servers ++ [(w.next, ⟨none, true⟩)], next := w.next + 1 } :=
      server_inv h (Nat.le_refl _) (Nat.lt_succ_self _) h.sbelow (by simp)
    cases b with
    | noSocket => exact ⟨key, fun _ hF => hF⟩
    | bindFails g =>
      simp only [step, newServer]
      by_cases hg : g ∈ w.files
      · rw [if_pos hg]; trivial
      · rw [if_neg hg, closes_opens_eq h hg]
        exact ⟨key, fun _ hF => hF⟩
    | listenFails g =>
      simp only [step, newServer]
      by_cases hg : g ∈ w.files
      · rw [if_pos hg]; trivial
      · rw [if_neg hg, closes_opens_eq h hg]
        exact ⟨key, fun _ hF => hF⟩
    | ok g =>
      simp only [step, newServer]
      by_cases hg : g ∈ w.files
      · rw [if_pos hg]; trivial
      · rw [if_neg hg]
        refine ⟨server_inv (add_inv h hg) (Nat.le_refl _) (Nat.lt_succ_self _) ?_ ?_, fun _ hF => add_faithful (w := w.opens g) hF _⟩
        · intro v hv; exact Nat.lt_succ_of_lt (h.sbelow v hv)
        · intro i hi
          simp only [Option.some.injEq] at hi
          subst hi
          refine ⟨⟨_, List.mem_append_right _ (List.mem_singleton.2 rfl)⟩, fun v hv hc => ?_⟩
          obtain ⟨o, ho⟩ := h.live v hv _ hc
          exact absurd (h.below _ ho) (Nat.lt_irrefl _)
  | listen s b =>
    refine good_serve h fun v hv => ?_
    unfold startListening
    cases hi : v.sock with
    | none => exact ⟨h, fun _ hF => hF⟩
    | some i =>
      obtain ⟨o, ho⟩ := h.live _ hv i hi
      have hc : v.callback = true := h.calls _ hv
      simp only [h.obj_iff.2 ho, hc, if_true]
      have := good_watch h (f := ∀ i, Act.listen s b ≠ .move i) ho b
      cases hr : watch w i o b with
      | ok w' x => rw [hr] at this; exact this
      | _ => rw [hr] at this; exact this
  | stop s =>
    refine good_serve h fun v hv => ?_
    unfold stopListening
    cases hi : v.sock with
    | none => trivial
    | some i =>
      obtain ⟨o, ho⟩ := h.live _ hv i hi
      simp only [h.obj_iff.2 ho]
      exact ⟨stop_inv h ho, fun _ hF => stop_faithful h hF ho⟩
  | shut s =>
    refine good_serve h fun v hv => ?_
    unfold closeServer
    cases hi : v.sock with
    | none => exact ⟨h, fun _ hF => hF⟩
    | some i =>
      obtain ⟨o, ho⟩ := h.live _ hv i hi
      simp only [h.obj_iff.2 ho]
      exact good_close h ho
  | dropServer s =>
    refine good_serve h fun v hv => ?_
    unfold dropServer
    cases hi : v.sock with
    | none => exact ⟨drop_inv h s, fun _ hF => hF⟩
    | some i =>
      obtain ⟨o, ho⟩ := h.live _ hv i hi
      obtain ⟨w', e, h1, h2, h3⟩ := close_some h ho
      simp only [h.obj_iff.2 ho, destroy, e]
      have hs := end_inv h hv hi
      rw [← close_servers e] at hs
      exact ⟨gone_inv (drop_inv h1 s) h3 hs, fun _ hF => gone_faithful (drop_inv h1 s) (h2 hF) h3⟩
  | ready g r =>
    simp only [step, ready]
    cases hf : w.watch.find? (fun e => e.1 = g) with
    | none => trivial
    | some e =>
      obtain ⟨k, i⟩ := e
      simp only
      cases ho : w.obj i with
      | none =>
        intro hF
        obtain ⟨o, ho', -⟩ := hF _ (List.mem_of_find?_eq_some hf)
        simp only at ho'
        rw [h.obj_iff.2 ho'] at ho
        simp at ho
      | some o =>
        have ho' := h.obj_iff.1 ho
        simp only
        cases hs : w.servers.find? (fun e => e.2.sock = some i) with
        | none => exact ⟨h, fun _ hF => hF⟩
        | some sv =>
          obtain ⟨s, v⟩ := sv
          simp only [accept]
          cases r with
          | none => exact ⟨h, fun _ hF => hF⟩
          | some q =>
            simp only
            by_cases hq : q ∈ w.files
            · rw [if_pos hq]; trivial
            · rw [if_neg hq, stop_opens]
              refine ⟨add_inv (stop_inv h ho') (by rw [stop_files]; exact hq), fun _ hF => add_faithful (w := (stopWatching w i o).opens q) ?_ _⟩
              exact stop_faithful h hF ho'
  | connect j =>
    cases j with
    | noSocket => exact ⟨add_none_inv h, fun _ hF => add_faithful hF _⟩
    | fails g =>
      simp only [step, connect]
      by_cases hg : g ∈ w.files
      · rw [if_pos hg]; trivial
      · rw [if_neg hg]
        by_cases h0 : g < 1
        · rw [if_pos h0]; exact ⟨add_inv h hg, fun _ hF => add_faithful (w := w.opens g) hF _⟩
        · rw [if_neg h0]
          have hm : (w.next, (⟨some g, false⟩ : Obj)) ∈ ((w.opens g).add (some g)).objs := List.mem_append_right _ (List.mem_singleton.2 rfl)
          obtain ⟨w', e, h1, h2, -⟩ := close_some (add_inv h hg) hm
          rw [e]
          exact ⟨h1, fun _ hF => h2 (add_faithful (w := w.opens g) hF _)⟩
    | ok g =>
      simp only [step, connect]
      by_cases hg : g ∈ w.files
      · rw [if_pos hg]; trivial
      · rw [if_neg hg]
        have h1 := add_inv h hg
        by_cases h0 : g < 1
        · rw [if_pos h0]; exact ⟨h1, fun _ hF => add_faithful (w := w.opens g) hF _⟩
        · rw [if_neg h0]
          refine ⟨⟨h1.keys, h1.below, h1.nodup, h1.owned, h1.opened, h1.wkeys, h1.wsub, h1.wall, h1.live, h1.socks, h1.skeys, h1.sbelow, h1.calls, ?_⟩,
            fun _ hF => add_faithful (w := w.opens g) hF _⟩
          intro q hq
          rcases List.mem_cons.1 hq with rfl | hq
          · exact List.mem_cons_self
          · exact h1.joined q hq
  | watch i b => exact good_use h fun o ho _ => good_watch h ho b
  | unwatch i => exact good_use h fun o ho _ => ⟨stop_inv h ho, fun _ hF => stop_faithful h hF ho⟩
  | close i => exact good_use h fun o ho _ => good_close h ho
  | destroy i =>
    refine good_use h fun o ho hs => ?_
    obtain ⟨w', e, h1, h2, h3⟩ := close_some h ho
    simp only [destroy, e]
    rw [← close_servers e] at hs
    exact ⟨gone_inv h1 h3 hs, fun _ hF => gone_faithful h1 (h2 hF) h3⟩
  | move i => exact good_use h fun o ho hs => ⟨moved_inv h ho, fun hn => absurd rfl (hn i)⟩

/-- A history up to a point. -/
theorem run_append {w : World} {as bs : List Act} {w2 : World} {z : List Seen} (h : run w (as ++ bs) = .ok w2 z) :
    ∃ w1 x y, run w as = .ok w1 x ∧ run w1 bs = .ok w2 y ∧ z = x ++ y := by
  induction as generalizing w z with
  | nil => exact ⟨w, [], z, rfl, h, rfl⟩
  | cons a as ih =>
    simp only [List.cons_append, run] at h ⊢
    cases hs : step w a with
    | ok w' x =>
      simp only [hs] at h ⊢
      cases hr : run w' (as ++ bs) with
      | ok w'' y =>
        simp only [hr] at h
        simp only [Res.ok.injEq] at h
        obtain ⟨rfl, rfl⟩ := h
        obtain ⟨w1, x1, y1, h1, h2, rfl⟩ := ih hr
        exact ⟨w1, x ++ x1, y1, by rw [h1], h2, by simp⟩
      | _ => simp [hr] at h
    | _ => simp [hs] at h

theorem run_cons {w : World} {a : Act} {bs : List Act} {w2 : World} {z : List Seen} (h : run w (a :: bs) = .ok w2 z) :
    ∃ w1 x y, step w a = .ok w1 x ∧ run w1 bs = .ok w2 y ∧ z = x ++ y := by
  simp only [run] at h
  cases hs : step w a with
  | ok w' x =>
    simp only [hs] at h
    cases hr : run w' bs with
    | ok w'' y =>
      simp only [hr, Res.ok.injEq] at h
      obtain ⟨rfl, rfl⟩ := h
      exact ⟨w', x, y, rfl, hr, rfl⟩
    | _ => simp [hr] at h
  | _ => simp [hs] at h

theorem good_run {w : World} (h : Inv w) (as : List Act) : Good w (∀ i, .move i ∉ as) (run w as) ∨
    (run w as = .dangling ∧ ∃ i, .move i ∈ as) := by
  induction as generalizing w with
  | nil => exact Or.inl ⟨h, fun _ hF => hF⟩
  | cons a as ih =>
    have hg := good_step h a
    simp only [run]
    cases hs : step w a with
    | ok w' x =>
      rw [hs] at hg
      simp only
      rcases ih hg.1 with h1 | ⟨h1, j, hj⟩
      · cases hr : run w' as with
        | ok w'' y =>
          rw [hr] at h1
          refine Or.inl ⟨h1.1, fun hm hF => h1.2 (fun i hi => hm i (List.mem_cons_of_mem _ hi)) (hg.2 ?_ hF)⟩
          intro i hi
          exact hm i (hi ▸ List.mem_cons_self)
        | dangling =>
          rw [hr] at h1
          by_cases ha : ∃ i, a = .move i
          · obtain ⟨i, rfl⟩ := ha
            exact Or.inr ⟨rfl, i, List.mem_cons_self⟩
          · exact Or.inl fun hF => h1 (hg.2 (fun i hi => ha ⟨i, hi⟩) hF)
        | stray => rw [hr] at h1; exact h1.elim
        | _ => exact Or.inl trivial
      · simp only [h1]; exact Or.inr ⟨trivial, j, List.mem_cons_of_mem _ hj⟩
    | dangling => rw [hs] at hg; exact Or.inl hg
    | stray => rw [hs] at hg; exact hg.elim
    | _ => exact Or.inl trivial

theorem inv_run {w w' : World} (h : Inv w) {as : List Act} {x : List Seen} (hr : run w as = .ok w' x) : Inv w' := by
  rcases good_run h as with h1 | ⟨h1, -⟩
  · rw [hr] at h1; exact h1.1
  · rw [hr] at h1; cases h1

theorem faithful_run {w w' : World} (h : Inv w) (hF : Faithful w) {as : List Act} {x : List Seen} (hr : run w as = .ok w' x)
    (hm : ∀ i, .move i ∉ as) : Faithful w' := by
  rcases good_run h as with h1 | ⟨h1, -⟩
  · rw [hr] at h1; exact h1.2 hm hF
  · rw [hr] at h1; cases h1

end Verif.Fd
