import Verif.Fd.Model

/-! Invariants of the sockets. -/
namespace Verif.Fd

/-- What holds of every reachable world, moves of sockets included. -/
structure Inv (w : World) : Prop where
  keys : (w.objs.map (·.1)).Nodup
  below : ∀ e ∈ w.objs, e.1 < w.next
  nodup : w.files.Nodup
  owned : (w.objs.filterMap (·.2.fd)).Perm w.files
  opened : ∀ e ∈ w.objs, e.2.watching = true → e.2.fd ≠ none
  wkeys : (w.watch.map (·.1)).Nodup
  wsub : ∀ e ∈ w.watch, ∃ o ∈ w.objs, o.2.fd = some e.1 ∧ o.2.watching = true
  wall : ∀ o ∈ w.objs, o.2.watching = true → ∀ f, o.2.fd = some f → ∃ e ∈ w.watch, e.1 = f
  live : ∀ v ∈ w.servers, ∀ i, v.2.sock = some i → ∃ o, (i, o) ∈ w.objs
  socks : (w.servers.filterMap (·.2.sock)).Nodup
  skeys : (w.servers.map (·.1)).Nodup
  sbelow : ∀ v ∈ w.servers, v.1 < w.next
  calls : ∀ v ∈ w.servers, v.2.callback = true
  joined : ∀ f ∈ w.joined, f ∈ w.files

theorem inv_init : Inv World.init := by
  constructor <;> simp [World.init]

/-- Every callback of the watcher is for the socket that has the descriptor. -/
def Faithful (w : World) : Prop := ∀ e ∈ w.watch, ∃ o, (e.2, o) ∈ w.objs ∧ o.fd = some e.1 ∧ o.watching = true

theorem key_inj {α : Type} {l : List (Nat × α)} (h : (l.map (·.1)).Nodup) {i : Nat} {a b : α} (ha : (i, a) ∈ l) (hb : (i, b) ∈ l) : a = b := by
  induction l with
  | nil => simp at ha
  | cons e l ih =>
    simp only [List.map_cons, List.nodup_cons] at h
    rcases List.mem_cons.1 ha with ha | ha <;> rcases List.mem_cons.1 hb with hb | hb
    · rw [← ha] at hb; simpa using hb.symm
    · exact absurd (List.mem_map_of_mem hb) (by rw [← ha] at h; exact h.1)
    · exact absurd (List.mem_map_of_mem ha) (by rw [← hb] at h; exact h.1)
    · exact ih h.2 ha hb

theorem find_iff {α : Type} {l : List (Nat × α)} (h : (l.map (·.1)).Nodup) {i : Nat} {a : α} :
    (l.find? (fun e => e.1 = i)).map (·.2) = some a ↔ (i, a) ∈ l := by
  constructor
  · intro hf
    obtain ⟨e, he, rfl⟩ := Option.map_eq_some_iff.1 hf
    have h1 := List.find?_some he
    have h2 := List.mem_of_find?_eq_some he
    simp only [decide_eq_true_eq] at h1
    subst h1; exact h2
  · intro hm
    cases hf : l.find? (fun e => e.1 = i) with
    | none => rw [List.find?_eq_none] at hf; exact absurd (by simp) (hf _ hm)
    | some e =>
      have h1 := List.find?_some hf
      have h2 := List.mem_of_find?_eq_some hf
      simp only [decide_eq_true_eq] at h1
      subst h1
      simp [key_inj h h2 hm]

theorem Inv.obj_iff {w : World} (h : Inv w) {i : Nat} {o : Obj} : w.obj i = some o ↔ (i, o) ∈ w.objs := find_iff h.keys

theorem Inv.srv_iff {w : World} (h : Inv w) {s : Nat} {v : Srv} : w.srv s = some v ↔ (s, v) ∈ w.servers := find_iff h.skeys

/-- The list of the sockets around one of them. -/
theorem around {w : World} (h : Inv w) {i : Nat} {o : Obj} (ho : (i, o) ∈ w.objs) :
    ∃ l1 l2, w.objs = l1 ++ (i, o) :: l2 ∧ (∀ e ∈ l1 ++ l2, e.1 ≠ i) ∧ (∀ o', (w.put i o').objs = l1 ++ (i, o') :: l2) := by
  obtain ⟨l1, l2, hl⟩ := List.append_of_mem ho
  have hn := h.keys
  rw [hl] at hn
  simp only [List.map_append, List.map_cons] at hn
  have hne : ∀ e ∈ l1 ++ l2, e.1 ≠ i := by
    intro e he hi
    rw [List.nodup_append] at hn
    obtain ⟨_, h2, h3⟩ := hn
    rcases List.mem_append.1 he with he | he
    · exact h3 e.1 (List.mem_map_of_mem he) i (by simp) hi
    · rw [List.nodup_cons] at h2
      exact h2.1 (hi ▸ List.mem_map_of_mem he)
  refine ⟨l1, l2, hl, hne, fun o' => ?_⟩
  simp only [World.put, hl, List.map_append, List.map_cons, if_true]
  have e1 : ∀ l : List (Nat × Obj), (∀ e ∈ l, e.1 ≠ i) → l.map (fun e => if e.1 = i then (i, o') else e) = l := by
    intro l hn'
    have : l.map (fun e => if e.1 = i then (i, o') else e) = l.map id :=
      List.map_congr_left fun e he => by rw [if_neg (hn' e he)]; rfl
    rw [this, List.map_id]
  rw [e1 l1 (fun e he => hne e (List.mem_append_left _ he)), e1 l2 (fun e he => hne e (List.mem_append_right _ he))]

/-- Only one live socket has a descriptor. -/
theorem Inv.one {w : World} (h : Inv w) {e e' : Nat × Obj} {f : Nat} (he : e ∈ w.objs) (he' : e' ∈ w.objs)
    (hf : e.2.fd = some f) (hf' : e'.2.fd = some f) : e = e' := by
  have hn : (w.objs.filterMap (·.2.fd)).Nodup := h.owned.nodup_iff.2 h.nodup
  obtain ⟨l1, l2, hl⟩ := List.append_of_mem he
  rw [hl] at hn he'
  simp only [List.filterMap_append, List.filterMap_cons, hf, List.nodup_append, List.nodup_cons, List.mem_filterMap, not_exists, not_and,
    List.mem_cons] at hn
  rcases List.mem_append.1 he' with h1 | h1
  · exact absurd rfl (hn.2.2 f ⟨_, h1, hf'⟩ f (Or.inl rfl))
  · rcases List.mem_cons.1 h1 with h1 | h1
    · exact h1.symm
    · exact absurd hf' (hn.2.1.1 _ h1)

theorem Inv.open_of {w : World} (h : Inv w) {e : Nat × Obj} {f : Nat} (he : e ∈ w.objs) (hf : e.2.fd = some f) : f ∈ w.files :=
  h.owned.subset (List.mem_filterMap.2 ⟨e, he, hf⟩)

/-- The members of the sockets after an assignment to one of them. -/
theorem mem_put {w : World} {i : Nat} {o' : Obj} {e : Nat × Obj} :
    e ∈ (w.put i o').objs ↔ (e.1 ≠ i ∧ e ∈ w.objs) ∨ (e = (i, o') ∧ ∃ o, (i, o) ∈ w.objs) := by
  simp only [World.put, List.mem_map]
  constructor
  · rintro ⟨x, hx, rfl⟩
    by_cases hi : x.1 = i
    · rw [if_pos hi]; exact Or.inr ⟨rfl, x.2, by rw [← hi]; exact hx⟩
    · rw [if_neg hi]; exact Or.inl ⟨hi, hx⟩
  · rintro (⟨h1, h2⟩ | ⟨rfl, o, ho⟩)
    · exact ⟨e, h2, if_neg h1⟩
    · exact ⟨(i, o), ho, by simp⟩

theorem put_keys (w : World) (i : Nat) (o' : Obj) : (w.put i o').objs.map (·.1) = w.objs.map (·.1) := by
  simp only [World.put, List.map_map]
  apply List.map_congr_left
  intro e _
  simp only [Function.comp_apply]
  split <;> simp_all

theorem put_live {w : World} {i : Nat} {o' : Obj} {j : Nat} : (∃ o, (j, o) ∈ (w.put i o').objs) ↔ ∃ o, (j, o) ∈ w.objs := by
  simp only [mem_put, Prod.mk.injEq]
  constructor
  · rintro ⟨o, ⟨_, h⟩ | ⟨⟨rfl, rfl⟩, h⟩⟩
    · exact ⟨o, h⟩
    · exact h
  · rintro ⟨o, h⟩
    by_cases hj : j = i
    · subst hj; exact ⟨o', Or.inr ⟨⟨rfl, rfl⟩, o, h⟩⟩
    · exact ⟨o, Or.inl ⟨hj, h⟩⟩

theorem stop_inv {w : World} (h : Inv w) {i : Nat} {o : Obj} (ho : (i, o) ∈ w.objs) : Inv (stopWatching w i o) := by
  unfold stopWatching
  split
  case isFalse => exact h
  case isTrue hw =>
    obtain ⟨l1, l2, hl, hne, hp⟩ := around h ho
    constructor
    case keys => exact (put_keys w i _).symm ▸ h.keys
    case below =>
      intro e he
      rcases mem_put.1 he with ⟨_, h1⟩ | ⟨rfl, _⟩
      · exact h.below _ h1
      · have : i < w.next := h.below _ ho
        exact this
    case nodup => exact h.nodup
    case owned =>
      have := h.owned
      rw [hl] at this
      show ((w.put i { o with watching := false }).objs.filterMap _).Perm w.files
      rw [hp]
      simpa [List.filterMap_cons] using this
    case opened =>
      intro e he hwe
      rcases mem_put.1 he with ⟨_, h1⟩ | ⟨rfl, _⟩
      · exact h.opened _ h1 hwe
      · simp at hwe
    case wkeys => exact h.wkeys.sublist ((List.filter_sublist).map _)
    case wsub =>
      intro e he
      simp only [List.mem_filter, decide_eq_true_eq] at he
      obtain ⟨x, hx, hf, hwx⟩ := h.wsub e he.1
      refine ⟨x, mem_put.2 (Or.inl ⟨fun hi => ?_, hx⟩), hf, hwx⟩
      obtain ⟨xi, xo⟩ := x
      subst hi
      have := key_inj h.keys hx ho
      subst this
      exact he.2 hf.symm
    case wall =>
      intro x hx hwx f hf
      rcases mem_put.1 hx with ⟨hi, h1⟩ | ⟨rfl, _⟩
      · obtain ⟨e, he, hef⟩ := h.wall x h1 hwx f hf
        refine ⟨e, List.mem_filter.2 ⟨he, ?_⟩, hef⟩
        simp only [decide_eq_true_eq]
        intro hc
        rw [hef] at hc
        exact hi (congrArg Prod.fst (h.one h1 ho hf hc.symm))
      · simp at hwx
    case live => intro v hv j hj; exact put_live.2 (h.live v hv j hj)
    case socks => exact h.socks
    case skeys => exact h.skeys
    case sbelow => exact h.sbelow
    case calls => exact h.calls
    case joined => exact h.joined

theorem stop_faithful {w : World} (h : Inv w) (hF : Faithful w) {i : Nat} {o : Obj} (ho : (i, o) ∈ w.objs) : Faithful (stopWatching w i o) := by
  unfold stopWatching
  split
  case isFalse => exact hF
  case isTrue hw =>
    intro e he
    simp only [List.mem_filter, decide_eq_true_eq] at he
    obtain ⟨x, hx, hf, hwx⟩ := hF e he.1
    refine ⟨x, mem_put.2 (Or.inl ⟨fun hi => ?_, hx⟩), hf, hwx⟩
    replace hi : e.2 = i := hi
    rw [hi] at hx
    have := key_inj h.keys hx ho
    subst this
    exact he.2 hf.symm

theorem stop_obj {w : World} {i : Nat} {o : Obj} (ho : (i, o) ∈ w.objs) : (i, { o with watching := false }) ∈ (stopWatching w i o).objs := by
  unfold stopWatching
  split
  · exact mem_put.2 (Or.inr ⟨rfl, o, ho⟩)
  · rename_i hw
    have : ({ o with watching := false } : Obj) = o := by cases o; simp_all
    rw [this]; exact ho

theorem stop_files (w : World) (i : Nat) (o : Obj) : (stopWatching w i o).files = w.files := by
  unfold stopWatching; split <;> rfl

/-- The second half of `close`: the descriptor goes. -/
theorem closes_inv {w : World} (h : Inv w) {i f : Nat} (ho : (i, (⟨some f, false⟩ : Obj)) ∈ w.objs) : Inv ((w.put i ⟨none, false⟩).closes f) := by
  obtain ⟨l1, l2, hl, hne, hp⟩ := around h ho
  have hnd : (w.objs.filterMap (·.2.fd)).Nodup := h.owned.nodup_iff.2 h.nodup
  constructor
  case keys => exact (put_keys w i _).symm ▸ h.keys
  case below =>
    intro e he
    rcases mem_put.1 he with ⟨_, h1⟩ | ⟨rfl, _⟩
    · exact h.below _ h1
    · have : i < w.next := h.below _ ho
      exact this
  case nodup => exact h.nodup.filter _
  case owned =>
    have hpm := h.owned
    rw [hl] at hpm hnd
    show ((w.put i ⟨none, false⟩).objs.filterMap _).Perm (w.files.filter (· ≠ f))
    rw [hp]
    simp only [List.filterMap_append, List.filterMap_cons] at hpm hnd ⊢
    have h2 := (hpm.filter (· ≠ f))
    refine List.Perm.trans ?_ h2
    rw [List.nodup_append] at hnd
    have e1 : ∀ x ∈ l1.filterMap (fun e : Nat × Obj => e.2.fd), x ≠ f := fun x hx hxf => hnd.2.2 x hx f (by simp) hxf
    have e2 : ∀ x ∈ l2.filterMap (fun e : Nat × Obj => e.2.fd), x ≠ f := fun x hx hxf => (List.nodup_cons.1 hnd.2.1).1 (hxf ▸ hx)
    rw [List.filter_append, List.filter_cons_of_neg (by simp), List.filter_eq_self.2 (by simpa using e1), List.filter_eq_self.2 (by simpa using e2)]
  case opened =>
    intro e he hwe
    rcases mem_put.1 he with ⟨_, h1⟩ | ⟨rfl, _⟩
    · exact h.opened _ h1 hwe
    · simp at hwe
  case wkeys => exact h.wkeys
  case wsub =>
    intro e he
    obtain ⟨x, hx, hf, hwx⟩ := h.wsub e he
    refine ⟨x, mem_put.2 (Or.inl ⟨fun hi => ?_, hx⟩), hf, hwx⟩
    obtain ⟨xi, xo⟩ := x
    subst hi
    have := key_inj h.keys hx ho
    subst this
    simp at hwx
  case wall =>
    intro x hx hwx g hg
    rcases mem_put.1 hx with ⟨hi, h1⟩ | ⟨rfl, _⟩
    · exact h.wall x h1 hwx g hg
    · simp at hwx
  case live => intro v hv j hj; exact put_live.2 (h.live v hv j hj)
  case socks => exact h.socks
  case skeys => exact h.skeys
  case sbelow => exact h.sbelow
  case calls => exact h.calls
  case joined =>
    intro g hg
    have hg' := List.mem_filter.1 hg
    exact List.mem_filter.2 ⟨h.joined g hg'.1, hg'.2⟩

theorem closes_faithful {w : World} (h : Inv w) (hF : Faithful w) {i f : Nat} (ho : (i, (⟨some f, false⟩ : Obj)) ∈ w.objs) :
    Faithful ((w.put i ⟨none, false⟩).closes f) := by
  intro e he
  obtain ⟨x, hx, hf, hwx⟩ := hF e he
  refine ⟨x, mem_put.2 (Or.inl ⟨fun hi => ?_, hx⟩), hf, hwx⟩
  replace hi : e.2 = i := hi
  rw [hi] at hx
  have := key_inj h.keys hx ho
  subst this
  simp at hwx

theorem close_some {w : World} (h : Inv w) {i : Nat} {o : Obj} (ho : (i, o) ∈ w.objs) :
    ∃ w', close w i o = some w' ∧ Inv w' ∧ (Faithful w → Faithful w') ∧ (i, (⟨none, false⟩ : Obj)) ∈ w'.objs := by
  unfold close
  cases hf : o.fd with
  | none =>
    refine ⟨w, rfl, h, id, ?_⟩
    have : o = ⟨none, false⟩ := by
      cases hw : o.watching
      · cases o; simp_all
      · exact absurd hf (h.opened _ ho hw)
    rwa [← this]
  | some f =>
    have hmem : f ∈ w.files := h.open_of ho hf
    have h1 := stop_inv h ho
    have h2 := stop_obj ho
    have e : ({ o with watching := false } : Obj) = ⟨some f, false⟩ := by cases o; simp_all
    rw [e] at h2
    refine ⟨_, if_pos hmem, closes_inv h1 h2, fun hF => closes_faithful h1 (stop_faithful h hF ho) h2, ?_⟩
    exact mem_put.2 (Or.inr ⟨rfl, _, h2⟩)

/-- A new socket with a descriptor the kernel has just opened. -/
theorem add_inv {w : World} (h : Inv w) {f : Nat} (hf : f ∉ w.files) : Inv ((w.opens f).add (some f)) := by
  constructor
  case keys =>
    simp only [World.add, World.opens, List.map_append, List.map_cons, List.map_nil]
    rw [List.nodup_append]
    refine ⟨h.keys, by simp, ?_⟩
    intro a ha b hb hab
    obtain ⟨e, he, rfl⟩ := List.mem_map.1 ha
    simp only [List.mem_singleton] at hb
    have := h.below e he
    omega
  case below =>
    intro e he
    simp only [World.add, World.opens, List.mem_append, List.mem_singleton] at he ⊢
    rcases he with he | rfl
    · have := h.below e he; omega
    · simp
  case nodup => exact List.nodup_cons.2 ⟨hf, h.nodup⟩
  case owned =>
    simp only [World.add, World.opens, List.filterMap_append, List.filterMap_cons, List.filterMap_nil]
    exact List.perm_append_comm.trans (List.Perm.cons f h.owned)
  case opened =>
    intro e he hw
    simp only [World.add, World.opens, List.mem_append, List.mem_singleton] at he
    rcases he with he | rfl
    · exact h.opened e he hw
    · simp
  case wkeys => exact h.wkeys
  case wsub =>
    intro e he
    obtain ⟨x, hx, h2⟩ := h.wsub e he
    exact ⟨x, List.mem_append_left _ hx, h2⟩
  case wall =>
    intro e he hw
    simp only [World.add, World.opens, List.mem_append, List.mem_singleton] at he
    rcases he with he | rfl
    · exact h.wall e he hw
    · simp at hw
  case live =>
    intro v hv i hi
    obtain ⟨o, ho⟩ := h.live v hv i hi
    exact ⟨o, List.mem_append_left _ ho⟩
  case socks => exact h.socks
  case skeys => exact h.skeys
  case sbelow => intro v hv; exact Nat.lt_succ_of_lt (h.sbelow v hv)
  case calls => exact h.calls
  case joined => intro g hg; exact List.mem_cons_of_mem _ (h.joined g hg)

theorem add_none_inv {w : World} (h : Inv w) : Inv (w.add none) := by
  constructor
  case keys =>
    simp only [World.add, List.map_append, List.map_cons, List.map_nil]
    rw [List.nodup_append]
    refine ⟨h.keys, by simp, ?_⟩
    intro a ha b hb hab
    obtain ⟨e, he, rfl⟩ := List.mem_map.1 ha
    simp only [List.mem_singleton] at hb
    have := h.below e he
    omega
  case below =>
    intro e he
    simp only [World.add, List.mem_append, List.mem_singleton] at he ⊢
    rcases he with he | rfl
    · have := h.below e he; omega
    · simp
  case nodup => exact h.nodup
  case owned =>
    simp only [World.add, List.filterMap_append, List.filterMap_cons, List.filterMap_nil, List.append_nil]
    exact h.owned
  case opened =>
    intro e he hw
    simp only [World.add, List.mem_append, List.mem_singleton] at he
    rcases he with he | rfl
    · exact h.opened e he hw
    · simp at hw
  case wkeys => exact h.wkeys
  case wsub =>
    intro e he
    obtain ⟨x, hx, h2⟩ := h.wsub e he
    exact ⟨x, List.mem_append_left _ hx, h2⟩
  case wall =>
    intro e he hw
    simp only [World.add, List.mem_append, List.mem_singleton] at he
    rcases he with he | rfl
    · exact h.wall e he hw
    · simp at hw
  case live =>
    intro v hv i hi
    obtain ⟨o, ho⟩ := h.live v hv i hi
    exact ⟨o, List.mem_append_left _ ho⟩
  case socks => exact h.socks
  case skeys => exact h.skeys
  case sbelow => intro v hv; exact Nat.lt_succ_of_lt (h.sbelow v hv)
  case calls => exact h.calls
  case joined => exact h.joined

theorem add_faithful {w : World} (hF : Faithful w) (x : Option Nat) : Faithful (w.add x) := by
  intro e he
  obtain ⟨o, ho, h2⟩ := hF e he
  exact ⟨o, List.mem_append_left _ ho, h2⟩

/-- One more server. -/
theorem server_inv {w : World} (h : Inv w) {n m : Nat} (hn : w.next ≤ n) (hm : n < m) (hk : ∀ v ∈ w.servers, v.1 < n) {k : Option Nat}
    (hl : ∀ i, k = some i → (∃ o, (i, o) ∈ w.objs) ∧ ∀ v ∈ w.servers, v.2.sock ≠ some i) :
    Inv { w with servers := w.servers ++ [(n, ⟨k, true⟩)], next := m } := by
  constructor
  case keys => exact h.keys
  case below => intro e he; have := h.below e he; show e.1 < m; omega
  case nodup => exact h.nodup
  case owned => exact h.owned
  case opened => exact h.opened
  case wkeys => exact h.wkeys
  case wsub => exact h.wsub
  case wall => exact h.wall
  case live =>
    intro v hv i hi
    rcases List.mem_append.1 hv with hv | hv
    · exact h.live v hv i hi
    · rw [List.mem_singleton] at hv; subst hv; exact (hl i hi).1
  case socks =>
    show (List.filterMap _ (w.servers ++ _)).Nodup
    rw [List.filterMap_append]
    cases k with
    | none => simpa using h.socks
    | some i =>
      simp only [List.filterMap_cons, List.filterMap_nil]
      rw [List.nodup_append]
      refine ⟨h.socks, by simp, ?_⟩
      intro a ha b hb hab
      obtain ⟨v, hv, hva⟩ := List.mem_filterMap.1 ha
      simp only [List.mem_singleton] at hb
      subst hb hab
      exact (hl _ rfl).2 v hv hva
  case skeys =>
    show (List.map _ (w.servers ++ _)).Nodup
    rw [List.map_append, List.nodup_append]
    refine ⟨h.skeys, by simp, ?_⟩
    intro a ha b hb hab
    obtain ⟨v, hv, rfl⟩ := List.mem_map.1 ha
    simp only [List.map_cons, List.map_nil, List.mem_singleton] at hb
    have := hk v hv
    omega
  case sbelow =>
    intro v hv
    rcases List.mem_append.1 hv with hv | hv
    · have := hk v hv; show v.1 < m; omega
    · rw [List.mem_singleton] at hv; subst hv; exact hm
  case calls =>
    intro v hv
    rcases List.mem_append.1 hv with hv | hv
    · exact h.calls v hv
    · rw [List.mem_singleton] at hv; subst hv; rfl
  case joined => exact h.joined

/-- One server less. -/
theorem drop_inv {w : World} (h : Inv w) (s : Nat) : Inv { w with servers := w.servers.filter (fun e => e.1 ≠ s) } := by
  constructor
  case keys => exact h.keys
  case below => exact h.below
  case nodup => exact h.nodup
  case owned => exact h.owned
  case opened => exact h.opened
  case wkeys => exact h.wkeys
  case wsub => exact h.wsub
  case wall => exact h.wall
  case live => intro v hv i hi; exact h.live v (List.mem_filter.1 hv).1 i hi
  case socks => exact h.socks.sublist ((List.filter_sublist).filterMap _)
  case skeys => exact h.skeys.sublist ((List.filter_sublist).map _)
  case sbelow => intro v hv; exact h.sbelow v (List.mem_filter.1 hv).1
  case calls => intro v hv; exact h.calls v (List.mem_filter.1 hv).1
  case joined => exact h.joined

/-- A socket without a descriptor, of no server, goes. -/
theorem gone_inv {w : World} (h : Inv w) {i : Nat} (ho : (i, (⟨none, false⟩ : Obj)) ∈ w.objs) (hs : ∀ v ∈ w.servers, v.2.sock ≠ some i) :
    Inv { w with objs := w.objs.filter (fun e => e.1 ≠ i) } := by
  obtain ⟨l1, l2, hl, hne, -⟩ := around h ho
  have hno : ∀ e ∈ w.objs, e.2 ≠ ⟨none, false⟩ → e.1 ≠ i := by
    rintro ⟨j, o⟩ he hx hi
    replace hi : j = i := hi
    subst hi
    exact hx (key_inj h.keys he ho)
  constructor
  case keys => exact h.keys.sublist ((List.filter_sublist).map _)
  case below => intro e he; exact h.below e (List.mem_filter.1 he).1
  case nodup => exact h.nodup
  case owned =>
    refine List.Perm.trans (List.Perm.of_eq ?_) h.owned
    show List.filterMap _ (w.objs.filter _) = _
    rw [hl, List.filter_append, List.filter_cons_of_neg (by simp), List.filterMap_append, List.filterMap_append,
      List.filterMap_cons, List.filter_eq_self.2 (by simpa using fun a b hab => hne (a, b) (List.mem_append_left _ hab)),
      List.filter_eq_self.2 (by simpa using fun a b hab => hne (a, b) (List.mem_append_right _ hab))]
  case opened => intro e he; exact h.opened e (List.mem_filter.1 he).1
  case wkeys => exact h.wkeys
  case wsub =>
    intro e he
    obtain ⟨x, hx, hf, hw⟩ := h.wsub e he
    exact ⟨x, List.mem_filter.2 ⟨hx, by simpa using hno x hx (by intro hc; rw [hc] at hw; simp at hw)⟩, hf, hw⟩
  case wall => intro e he; exact h.wall e (List.mem_filter.1 he).1
  case live =>
    intro v hv j hj
    obtain ⟨o, ho'⟩ := h.live v hv j hj
    exact ⟨o, List.mem_filter.2 ⟨ho', by simpa using fun hc : j = i => hs v hv (hc ▸ hj)⟩⟩
  case socks => exact h.socks
  case skeys => exact h.skeys
  case sbelow => exact h.sbelow
  case calls => exact h.calls
  case joined => exact h.joined

theorem gone_faithful {w : World} (h : Inv w) (hF : Faithful w) {i : Nat} (ho : (i, (⟨none, false⟩ : Obj)) ∈ w.objs) :
    Faithful { w with objs := w.objs.filter (fun e => e.1 ≠ i) } := by
  intro e he
  obtain ⟨x, hx, hf, hw⟩ := hF e he
  refine ⟨x, List.mem_filter.2 ⟨hx, ?_⟩, hf, hw⟩
  simp only [decide_eq_true_eq]
  intro hc
  rw [hc] at hx
  have := key_inj h.keys hx ho
  subst this
  simp at hw

/-- Watching. -/
theorem watch_inv {w : World} (h : Inv w) {i f : Nat} {o : Obj} (ho : (i, o) ∈ w.objs) (hf : o.fd = some f) :
    Inv { w.put i { o with watching := true } with watch := (f, i) :: w.watch.filter (fun e => e.1 ≠ f) } := by
  obtain ⟨l1, l2, hl, hne, hp⟩ := around h ho
  constructor
  case keys => exact (put_keys w i _).symm ▸ h.keys
  case below =>
    intro e he
    rcases mem_put.1 he with ⟨_, h1⟩ | ⟨rfl, _⟩
    · exact h.below _ h1
    · have : i < w.next := h.below _ ho
      exact this
  case nodup => exact h.nodup
  case owned =>
    have := h.owned
    rw [hl] at this
    show ((w.put i { o with watching := true }).objs.filterMap _).Perm w.files
    rw [hp]
    simpa [List.filterMap_cons] using this
  case opened =>
    intro e he hwe
    rcases mem_put.1 he with ⟨_, h1⟩ | ⟨rfl, _⟩
    · exact h.opened _ h1 hwe
    · simp [hf]
  case wkeys =>
    show (List.map _ (_ :: _)).Nodup
    rw [List.map_cons, List.nodup_cons]
    refine ⟨?_, h.wkeys.sublist ((List.filter_sublist).map _)⟩
    simp
  case wsub =>
    intro e he
    rcases List.mem_cons.1 he with rfl | he
    · exact ⟨_, mem_put.2 (Or.inr ⟨rfl, o, ho⟩), hf, rfl⟩
    · have he' := List.mem_filter.1 he
      obtain ⟨x, hx, hfx, hwx⟩ := h.wsub e he'.1
      refine ⟨x, mem_put.2 (Or.inl ⟨?_, hx⟩), hfx, hwx⟩
      intro hi
      obtain ⟨xi, xo⟩ := x
      replace hi : xi = i := hi
      subst hi
      have := key_inj h.keys hx ho
      subst this
      rw [hf] at hfx
      have h3 := he'.2
      simp only [decide_eq_true_eq] at h3
      exact h3 (Option.some.inj hfx).symm
  case wall =>
    intro x hx hwx g hg
    rcases mem_put.1 hx with ⟨hi, h1⟩ | ⟨rfl, _⟩
    · obtain ⟨e, he, heg⟩ := h.wall x h1 hwx g hg
      refine ⟨e, List.mem_cons_of_mem _ (List.mem_filter.2 ⟨he, ?_⟩), heg⟩
      simp only [decide_eq_true_eq]
      intro hc
      rw [heg] at hc
      subst hc
      exact hi (congrArg Prod.fst (h.one h1 ho hg hf))
    · refine ⟨(f, i), List.mem_cons_self, ?_⟩
      rw [hf] at hg
      exact Option.some.inj hg
  case live => intro v hv j hj; exact put_live.2 (h.live v hv j hj)
  case socks => exact h.socks
  case skeys => exact h.skeys
  case sbelow => exact h.sbelow
  case calls => exact h.calls
  case joined => exact h.joined

theorem watch_faithful {w : World} (h : Inv w) (hF : Faithful w) {i f : Nat} {o : Obj} (ho : (i, o) ∈ w.objs) (hf : o.fd = some f) :
    Faithful { w.put i { o with watching := true } with watch := (f, i) :: w.watch.filter (fun e => e.1 ≠ f) } := by
  intro e he
  rcases List.mem_cons.1 he with rfl | he
  · exact ⟨_, mem_put.2 (Or.inr ⟨rfl, o, ho⟩), hf, rfl⟩
  · have he' := List.mem_filter.1 he
    obtain ⟨x, hx, hfx, hwx⟩ := hF e he'.1
    refine ⟨x, mem_put.2 (Or.inl ⟨?_, hx⟩), hfx, hwx⟩
    intro hi
    replace hi : e.2 = i := hi
    rw [hi] at hx
    have := key_inj h.keys hx ho
    subst this
    rw [hf] at hfx
    have h3 := he'.2
    simp only [decide_eq_true_eq] at h3
    exact h3 (Option.some.inj hfx).symm

/-- A move. -/
theorem moved_inv {w : World} (h : Inv w) {i : Nat} {o : Obj} (ho : (i, o) ∈ w.objs) :
    Inv { w.put i ⟨none, false⟩ with objs := (w.put i ⟨none, false⟩).objs ++ [(w.next, o)], next := w.next + 1 } := by
  obtain ⟨l1, l2, hl, hne, hp⟩ := around h ho
  have hin : ∀ x ∈ w.objs, x.2.fd ≠ none → ∃ y ∈ (w.put i ⟨none, false⟩).objs ++ [(w.next, o)], y.2 = x.2 := by
    rintro ⟨j, p⟩ hx _
    by_cases hi : j = i
    · subst hi
      refine ⟨(w.next, o), by simp, key_inj h.keys ho hx⟩
    · exact ⟨(j, p), List.mem_append_left _ (mem_put.2 (Or.inl ⟨hi, hx⟩)), rfl⟩
  constructor
  case keys =>
    show (List.map _ (_ ++ _)).Nodup
    rw [List.map_append, put_keys, List.nodup_append]
    refine ⟨h.keys, by simp, ?_⟩
    intro a ha b hb hab
    obtain ⟨e, he, rfl⟩ := List.mem_map.1 ha
    simp only [List.map_cons, List.map_nil, List.mem_singleton] at hb
    have := h.below e he
    omega
  case below =>
    intro e he
    show e.1 < w.next + 1
    rcases List.mem_append.1 he with he | he
    · rcases mem_put.1 he with ⟨_, h1⟩ | ⟨rfl, _⟩
      · have := h.below _ h1; omega
      · have := h.below (i, _) ho; simp only at this ⊢; omega
    · rw [List.mem_singleton] at he; subst he; simp
  case nodup => exact h.nodup
  case owned =>
    have := h.owned
    rw [hl] at this
    show (List.filterMap _ ((w.put i ⟨none, false⟩).objs ++ _)).Perm w.files
    refine List.Perm.trans ?_ this
    rw [hp, List.filterMap_append, List.filterMap_append, List.filterMap_append, List.append_assoc, List.filterMap_cons]
    refine List.Perm.append_left _ ?_
    refine List.perm_append_comm.trans ?_
    cases hf : o.fd <;> simp [hf]
  case opened =>
    intro e he hwe
    rcases List.mem_append.1 he with he | he
    · rcases mem_put.1 he with ⟨_, h1⟩ | ⟨rfl, _⟩
      · exact h.opened _ h1 hwe
      · simp at hwe
    · rw [List.mem_singleton] at he; subst he; exact h.opened (i, o) ho hwe
  case wkeys => exact h.wkeys
  case wsub =>
    intro e he
    obtain ⟨x, hx, hf, hw⟩ := h.wsub e he
    obtain ⟨y, hy, hyx⟩ := hin x hx (by rw [hf]; simp)
    exact ⟨y, hy, by rw [hyx]; exact hf, by rw [hyx]; exact hw⟩
  case wall =>
    intro e he hwe
    rcases List.mem_append.1 he with he | he
    · rcases mem_put.1 he with ⟨_, h1⟩ | ⟨rfl, _⟩
      · exact h.wall _ h1 hwe
      · simp at hwe
    · rw [List.mem_singleton] at he; subst he; exact h.wall (i, o) ho hwe
  case live =>
    intro v hv j hj
    obtain ⟨p, hp'⟩ := put_live.2 (h.live v hv j hj)
    exact ⟨p, List.mem_append_left _ hp'⟩
  case socks => exact h.socks
  case skeys => exact h.skeys
  case sbelow => intro v hv; exact Nat.lt_succ_of_lt (h.sbelow v hv)
  case calls => exact h.calls
  case joined => exact h.joined

end Verif.Fd
