import Verif.Lmp.ManagerLemmas

/-! # The link manager, call by call -/

namespace Verif.Lmp

theorem position_some {p : Link → Bool} : ∀ {ls : List Link} {i : Nat}, position p ls = some i →
    ∃ l, ls[i]? = some l ∧ p l = true
  | [], i, h => by simp [position] at h
  | l :: ls, i, h => by
    simp only [position] at h
    split at h
    · rename_i hp
      cases h
      exact ⟨l, rfl, hp⟩
    · cases hq : position p ls with
      | none => rw [hq] at h; cases h
      | some j =>
        rw [hq] at h
        cases h
        obtain ⟨x, hx, hp⟩ := position_some hq
        exact ⟨x, by simpa using hx, hp⟩

theorem position_none {p : Link → Bool} : ∀ {ls : List Link}, position p ls = none → ∀ l ∈ ls, p l = false
  | [], _, _, hx => by cases hx
  | l :: ls, h, x, hx => by
    simp only [position] at h
    split at h
    · cases h
    · rename_i hp
      rcases List.mem_cons.1 hx with rfl | hx
      · simpa using hp
      · refine position_none ?_ x hx
        cases hq : position p ls with
        | none => rfl
        | some j => rw [hq] at h; cases h

def boolNat (b : Bool) : Nat := if b then 1 else 0

theorem boolNat_false : boolNat false = 0 := rfl
theorem boolNat_true : boolNat true = 1 := rfl

theorem countP_cons' {α : Type} (p : α → Bool) (a : α) (l : List α) : (a :: l).countP p = l.countP p + boolNat (p a) :=
  List.countP_cons

theorem countP_erase' (p : Nat → Bool) {a : Nat} : ∀ {l : List Nat}, a ∈ l →
    (l.erase a).countP p + boolNat (p a) = l.countP p
  | [], h => by cases h
  | b :: l, h => by
    by_cases hb : b = a
    · subst hb
      rw [List.erase_cons_head, countP_cons']
    · rw [List.erase_cons_tail (by simpa using hb), countP_cons', countP_cons']
      have := countP_erase' p (l := l) ((List.mem_cons.1 h).resolve_left (Ne.symm hb))
      omega

theorem countP_set {α : Type} (p : α → Bool) : ∀ {ls : List α} {i : Nat} {x : α} (y : α), ls[i]? = some x →
    (ls.set i y).countP p + boolNat (p x) = ls.countP p + boolNat (p y)
  | [], i, x, y, h => by simp at h
  | a :: ls, 0, x, y, h => by
    simp only [List.getElem?_cons_zero, Option.some.injEq] at h
    subst h
    simp only [List.set_cons_zero, countP_cons']
    omega
  | a :: ls, i + 1, x, y, h => by
    have := countP_set p y (ls := ls) (i := i) (x := x) (by simpa using h)
    simp only [List.set_cons_succ, countP_cons']
    omega

theorem mem_set {α : Type} {ls : List α} {i : Nat} {x y : α} (h : x ∈ ls.set i y) : x = y ∨ x ∈ ls := by
  rcases List.mem_or_eq_of_mem_set h with h | h
  · exact Or.inr h
  · exact Or.inl h

/-- One call: commands, answers and waiting commands balance, and the procedures stay in order. -/
theorem step_balance {s : Bool} {P : Nat → Kind → Bool} {m m' : Mgr} {op : Op} {o : List MOut}
    (hl : ∀ l ∈ m.links, LinkFine s l) (hf : ∀ l ∈ m.links, Fits P l)
    (hw : ∀ a p, op = .lmp a (some p) → s = true → p.wellFormed = true)
    (h : step m op = .ok m' o) :
    (∀ l ∈ m'.links, LinkFine s l) ∧
    boolNat (op.isCmd P) + m.links.countP (Link.holds P) = o.countP (MOut.isAnswer P) + m'.links.countP (Link.holds P) := by
  cases op with
  | hci c =>
    cases c with
    | none => cases h
    | some c =>
      simp only [step, ingestHci] at h
      split at h
      · rename_i i hi
        split at h
        · rename_i l hget
          split at h
          · cases h
          · rename_i hs
            cases h
            refine ⟨fun x hx => ?_, ?_⟩
            · rcases mem_set hx with rfl | hx
              · have := hl l (List.mem_of_getElem? hget)
                exact ⟨this.1, this.2⟩
              · exact hl x hx
            · have := countP_set (Link.holds P) { l with slot := some c } hget
              simp only [Bool.not_eq_true, Option.isSome_eq_false_iff, Option.isNone_iff_eq_none] at hs
              have e1 : Link.holds P l = false := by simp [Link.holds, hs]
              have e2 : Link.holds P { l with slot := some c } = P c.addr c.kind := rfl
              rw [e1, e2, boolNat_false] at this
              simp only [Op.isCmd, List.countP_nil]
              omega
        · cases h
      · split at h
        · rename_i o' ho
          cases h
          refine ⟨hl, ?_⟩
          simp only [complete] at ho
          split at ho
          · cases ho
            simp only [countP_cons', MOut.isAnswer, Op.isCmd, List.countP_nil]
            omega
          · cases ho
        · cases h
  | lmp a p =>
    cases p with
    | none => cases h
    | some p =>
      simp only [step, ingestLmp] at h
      split at h
      · split at h
        · rename_i i hi l hget
          cases h
          refine ⟨fun x hx => ?_, ?_⟩
          · rcases mem_set hx with rfl | hx
            · have := hl l (List.mem_of_getElem? hget)
              refine ⟨this.1, fun hs x hx => ?_⟩
              simp only [List.mem_append, List.mem_singleton] at hx
              rcases hx with hx | rfl
              · exact this.2 hs x hx
              · exact hw a _ rfl hs
            · exact hl x hx
          · have := countP_set (Link.holds P) { l with queue := l.queue ++ [p] } hget
            have e : Link.holds P { l with queue := l.queue ++ [p] } = Link.holds P l := rfl
            rw [e] at this
            simp only [Op.isCmd, boolNat_false, List.countP_nil]
            omega
        · cases h
      · cases h
        exact ⟨hl, by simp [Op.isCmd, boolNat]⟩
  | add a =>
    simp only [step, addLink] at h
    split at h
    · rename_i i hi
      split at h
      · rename_i l hget
        cases h
        refine ⟨fun x hx => ?_, ?_⟩
        · rcases mem_set hx with rfl | hx
          · have := hl l (List.mem_of_getElem? hget)
            refine ⟨fun ps hps => ?_, this.2⟩
            cases hps
            exact procedures_fine _
          · exact hl x hx
        · have := countP_set (Link.holds P) { l with peer := a, procs := some (procedures m.feats) } hget
          have e : Link.holds P { l with peer := a, procs := some (procedures m.feats) } = Link.holds P l := rfl
          rw [e] at this
          simp only [Op.isCmd, boolNat_false, List.countP_nil]
          omega
      · cases h
    · cases h
  | remove a =>
    have fine : ∀ i, ∀ l ∈ m.links.set i Link.unused, LinkFine s l := by
      intro i x hx
      rcases mem_set hx with rfl | hx
      · exact ⟨nofun, fun _ => nofun⟩
      · exact hl x hx
    have hu : Link.holds P Link.unused = false := rfl
    simp only [step, removeLink] at h
    split at h
    · rename_i i hi
      split at h
      · rename_i l hget
        have hc := countP_set (Link.holds P) Link.unused hget
        rw [hu] at hc
        split at h
        · rename_i c hs
          split at h
          · rename_i o' ho
            cases h
            refine ⟨fine i, ?_⟩
            have he : Link.holds P l = P c.addr c.kind := by simp [Link.holds, hs]
            rw [he] at hc
            simp only [complete] at ho
            split at ho
            · cases ho
              simp only [countP_cons', List.countP_nil, MOut.isAnswer, Op.isCmd, boolNat_false] at hc ⊢
              omega
            · cases ho
          · cases h
        · rename_i hs
          cases h
          refine ⟨fine i, ?_⟩
          have he : Link.holds P l = false := by simp [Link.holds, hs]
          rw [he] at hc
          simp only [List.countP_nil, Op.isCmd, boolNat_false] at hc ⊢
          omega
      · cases h
    · cases h
  | tick =>
    simp only [step, tick] at h
    split at h
    · cases h
    · rename_i ls o' ht
      cases h
      obtain ⟨h1, -, -, h4⟩ := (tickLinks_fine (P := P) hl hf).2 _ _ ht
      exact ⟨h1, by simp only [Op.isCmd, boolNat_false]; omega⟩

/-- No stray command: the command a link holds is about its peer, not about the
empty address, and of a kind that has an answer. -/
def Tidy (m : Mgr) : Prop := ∀ l ∈ m.links, ∀ c, l.slot = some c → c.addr = l.peer ∧ c.addr ≠ emptyAddress ∧ c.kind.answerable = true

theorem Tidy.fits {m : Mgr} (h : Tidy m) (P : Nat → Kind → Bool) : ∀ l ∈ m.links, Fits P l :=
  fun l hl c hc => by rw [(h l hl c hc).1]

theorem lookup_addr {c : Cmd} {a : Nat} (h : c.lookup = some a) : a = c.addr := by
  unfold Cmd.lookup at h
  split at h
  · split at h
    · cases h
    · cases h; rfl
  · split at h
    · cases h
    · cases h; rfl
  · cases h
  · cases h; rfl

theorem lookup_answerable {c : Cmd} {a : Nat} (h : c.lookup = some a) : c.kind.answerable = true := by
  unfold Cmd.lookup at h
  unfold Kind.answerable
  cases hk : c.kind <;> first | rfl | (rw [hk] at h; cases h)

theorem step_tidy {s : Bool} {m m' : Mgr} {op : Op} {o : List MOut} (hl : ∀ l ∈ m.links, LinkFine s l) (ht : Tidy m)
    (hz : ∀ c, op = .hci (some c) → c.addr ≠ emptyAddress) (h : step m op = .ok m' o) : Tidy m' := by
  cases op with
  | hci c =>
    cases c with
    | none => cases h
    | some c =>
      simp only [step, ingestHci] at h
      split at h
      · rename_i i hi
        split at h
        · rename_i l hget
          split at h
          · cases h
          · cases h
            intro x hx d hd
            rcases mem_set hx with rfl | hx
            · cases hd
              refine ⟨?_, hz c rfl, ?_⟩
              rotate_left
              · cases hk : c.lookup with
                | none => rw [hk] at hi; cases hi
                | some a => exact lookup_answerable hk
              cases hk : c.lookup with
              | none => rw [hk] at hi; cases hi
              | some a =>
                rw [hk] at hi
                obtain ⟨l', hg', hp'⟩ := position_some hi
                rw [hget] at hg'
                cases hg'
                rw [← lookup_addr hk]
                simp only [decide_eq_true_eq] at hp'
                exact hp'.symm
            · exact ht x hx d hd
        · cases h
      · split at h
        · cases h; exact ht
        · cases h
  | lmp a p =>
    cases p with
    | none => cases h
    | some p =>
      simp only [step, ingestLmp] at h
      split at h
      · split at h
        · rename_i i hi l hget
          cases h
          intro x hx d hd
          rcases mem_set hx with rfl | hx
          · exact ht l (List.mem_of_getElem? hget) d hd
          · exact ht x hx d hd
        · cases h
      · cases h; exact ht
  | add a =>
    simp only [step, addLink] at h
    split at h
    · rename_i i hi
      split at h
      · rename_i l hget
        cases h
        intro x hx d hd
        rcases mem_set hx with rfl | hx
        · obtain ⟨l', hg', hp'⟩ := position_some hi
          rw [hget] at hg'
          cases hg'
          have := ht l (List.mem_of_getElem? hget) d hd
          simp only [decide_eq_true_eq] at hp'
          exact absurd (this.1.trans hp') this.2.1
        · exact ht x hx d hd
      · cases h
    · cases h
  | remove a =>
    have clean : ∀ i, Tidy { m with links := m.links.set i Link.unused } := by
      intro i x hx d hd
      rcases mem_set hx with rfl | hx
      · cases hd
      · exact ht x hx d hd
    simp only [step, removeLink] at h
    split at h
    · split at h
      · split at h
        · split at h
          · cases h; exact clean _
          · cases h
        · cases h; exact clean _
      · cases h
    · cases h
  | tick =>
    simp only [step, tick] at h
    split at h
    · cases h
    · rename_i ls o' ht'
      cases h
      obtain ⟨-, -, h3, -⟩ := (tickLinks_fine (P := fun _ _ => true) hl (ht.fits _)).2 _ _ ht'
      intro x hx d hd
      obtain ⟨y, hy, h1, h2⟩ := h3 x hx
      rcases h2 with h2 | h2
      · rw [h1]
        exact ht y hy d (by rw [← h2]; exact hd)
      · rw [h2] at hd; cases hd

/-! ## The peers -/

/-- `linked`, one call at a time. -/
def linkStep (l : List Nat) : Op → List Nat
  | .add a => l ++ [a]
  | .remove a => l.erase a
  | _ => l

theorem linked_snoc (ops : List Op) (op : Op) : linked (ops ++ [op]) = linkStep (linked ops) op := by
  simp only [linked, List.foldl_append, List.foldl_cons, List.foldl_nil]
  cases op <;> rfl

/-- The links in use are those of the connected peers. -/
structure PeersOk (ls : List Link) (l : List Nat) : Prop where
  count : ∀ a, a ≠ emptyAddress → ls.countP (fun x => x.peer = a) = l.count a
  used : ls.countP (fun x => x.peer ≠ emptyAddress) = l.countP (fun a => a ≠ emptyAddress)
  size : ls.length = maxPeers

theorem countP_peer {ls ls' : List Link} (h : ls'.map Link.peer = ls.map Link.peer) (p : Nat → Bool) :
    ls'.countP (fun x => p x.peer) = ls.countP (fun x => p x.peer) := by
  have h1 := List.countP_map (p := p) (f := Link.peer) (l := ls')
  have h2 := List.countP_map (p := p) (f := Link.peer) (l := ls)
  rw [h] at h1
  exact h1.symm.trans h2

theorem PeersOk.of_map {ls ls' : List Link} {l : List Nat} (h : PeersOk ls l) (hm : ls'.map Link.peer = ls.map Link.peer) :
    PeersOk ls' l := by
  refine ⟨fun a ha => ?_, ?_, ?_⟩
  · rw [countP_peer hm (fun x => x = a)]; exact h.count a ha
  · rw [countP_peer hm (fun x => x ≠ emptyAddress)]; exact h.used
  · have := congrArg List.length hm
    simpa [h.size] using this

theorem map_set_peer {ls : List Link} {i : Nat} {l l' : Link} (h : ls[i]? = some l) (hp : l'.peer = l.peer) :
    (ls.set i l').map Link.peer = ls.map Link.peer := by
  rw [List.map_set, hp]
  apply List.ext_getElem?
  intro j
  rw [List.getElem?_set]
  split
  · rename_i hij
    subst hij
    split
    · rename_i hlt
      simp [h]
    · rename_i hlt
      simp only [List.length_map, Nat.not_lt] at hlt
      rw [List.getElem?_eq_none (by simpa using hlt)]
  · rfl

theorem step_peers {s : Bool} {m m' : Mgr} {op : Op} {o : List MOut} {l : List Nat}
    (hl : ∀ l ∈ m.links, LinkFine s l) (hp : PeersOk m.links l) (h : step m op = .ok m' o) :
    PeersOk m'.links (linkStep l op) := by
  cases op with
  | hci c =>
    cases c with
    | none => cases h
    | some c =>
      simp only [step, ingestHci] at h
      split at h
      · split at h
        · rename_i i hi x hget
          split at h
          · cases h
          · cases h
            exact hp.of_map (map_set_peer hget rfl)
        · cases h
      · split at h
        · cases h; exact hp
        · cases h
  | lmp a p =>
    cases p with
    | none => cases h
    | some p =>
      simp only [step, ingestLmp] at h
      split at h
      · split at h
        · rename_i i hi x hget
          cases h
          exact hp.of_map (map_set_peer hget rfl)
        · cases h
      · cases h; exact hp
  | add a =>
    simp only [step, addLink] at h
    split at h
    · rename_i i hi
      split at h
      · rename_i x hget
        cases h
        obtain ⟨x', hg', hz⟩ := position_some hi
        rw [hget] at hg'
        cases hg'
        simp only [decide_eq_true_eq] at hz
        refine ⟨fun b hb => ?_, ?_, by simpa using hp.size⟩
        · have h1 := countP_set (fun x : Link => decide (x.peer = b)) { x with peer := a, procs := some (procedures m.feats) } hget
          have h2 := hp.count b hb
          simp only [linkStep, List.count_append, List.count_singleton, hz] at h1 ⊢
          rw [decide_eq_false (Ne.symm hb), boolNat_false] at h1
          by_cases hab : a = b
          · rw [decide_eq_true hab, boolNat_true] at h1
            rw [if_pos (by simpa using hab)]
            omega
          · rw [decide_eq_false hab, boolNat_false] at h1
            rw [if_neg (by simpa using hab)]
            omega
        · have h1 := countP_set (fun x : Link => decide (x.peer ≠ emptyAddress)) { x with peer := a, procs := some (procedures m.feats) } hget
          have h2 := hp.used
          simp only [linkStep, List.countP_append, countP_cons', List.countP_nil, hz] at h1 ⊢
          simp only [ne_eq, not_true, decide_false, boolNat_false] at h1 h2 ⊢
          omega
      · cases h
    · cases h
  | remove a =>
    have key : ∀ {i x}, position (fun l => l.peer = a) m.links = some i → m.links[i]? = some x →
        PeersOk (m.links.set i Link.unused) (l.erase a) := by
      intro i x hi hget
      obtain ⟨x', hg', hz⟩ := position_some hi
      rw [hget] at hg'
      cases hg'
      simp only [decide_eq_true_eq] at hz
      have hu : Link.unused.peer = emptyAddress := rfl
      refine ⟨fun b hb => ?_, ?_, by simpa using hp.size⟩
      · have h1 := countP_set (fun x : Link => decide (x.peer = b)) Link.unused hget
        have h2 := hp.count b hb
        simp only [hz, hu] at h1
        rw [decide_eq_false (Ne.symm hb), boolNat_false] at h1
        rw [List.count_erase]
        by_cases hab : a = b
        · rw [decide_eq_true hab, boolNat_true] at h1
          rw [if_pos (by simpa using hab)]
          omega
        · rw [decide_eq_false hab, boolNat_false] at h1
          rw [if_neg (by simpa using hab)]
          omega
      · have h1 := countP_set (fun x : Link => decide (x.peer ≠ emptyAddress)) Link.unused hget
        have h2 := hp.used
        simp only [hz, hu] at h1
        have e0 : boolNat (decide (emptyAddress ≠ emptyAddress)) = 0 := by simp [boolNat]
        rw [e0] at h1
        by_cases hmem : a ∈ l
        · have h3 := countP_erase' (fun a => decide (a ≠ emptyAddress)) hmem
          omega
        · rw [List.erase_of_not_mem hmem]
          have ha : a = emptyAddress := by
            refine Decidable.byContradiction (fun ha => hmem ?_)
            have hc := hp.count a ha
            have hpos : 0 < m.links.countP (fun x => x.peer = a) :=
              List.countP_pos_iff.2 ⟨x, List.mem_of_getElem? hget, by simpa using hz⟩
            rw [hc] at hpos
            exact List.count_pos_iff.1 hpos
          rw [ha, e0] at h1
          omega
    simp only [step, removeLink] at h
    split at h
    · rename_i i hi
      split at h
      · rename_i x hget
        split at h
        · split at h
          · cases h; exact key hi hget
          · cases h
        · cases h; exact key hi hget
      · cases h
    · cases h
  | tick =>
    simp only [step, tick] at h
    split at h
    · cases h
    · rename_i ls o' ht'
      cases h
      obtain ⟨-, h2, -⟩ := (tickLinks_fine (P := fun _ _ => true) hl (fun _ _ _ _ => rfl)).2 _ _ ht'
      exact hp.of_map h2

/-! ## Histories -/

theorem run_induct {C : List Op → List MOut → Mgr → Prop} {f : Feats} (h0 : C [] [] (.init f))
    (hs : ∀ ops outs m op m' o, C ops outs m → step m op = .ok m' o → C (ops ++ [op]) (outs ++ o) m') :
    ∀ {ops m outs}, run (.init f) ops = .ok m outs → C ops outs m := by
  suffices ∀ ops pre o0 m0 m outs, C pre o0 m0 → run m0 ops = .ok m outs → C (pre ++ ops) (o0 ++ outs) m by
    intro ops m outs h
    simpa using this ops [] [] (.init f) m outs h0 h
  intro ops
  induction ops with
  | nil =>
    intro pre o0 m0 m outs hc h
    cases h
    simpa using hc
  | cons op ops ih =>
    intro pre o0 m0 m outs hc h
    simp only [run] at h
    cases hst : step m0 op with
    | panic => rw [hst] at h; cases h
    | assertion => rw [hst] at h; cases h
    | ok m1 o1 =>
      rw [hst] at h
      simp only at h
      cases hr : run m1 ops with
      | panic => rw [hr] at h; cases h
      | assertion => rw [hr] at h; cases h
      | ok m2 o2 =>
        rw [hr] at h
        cases h
        have := ih (pre ++ [op]) (o0 ++ o1) m1 m o2 (hs _ _ _ _ _ _ hc hst) hr
        simpa using this

theorem run_snoc {m m' m'' : Mgr} {op : Op} {o o' : List MOut} : ∀ {ops : List Op}, run m ops = .ok m' o →
    step m' op = .ok m'' o' → run m (ops ++ [op]) = .ok m'' (o ++ o')
  | [], h, hs => by
    cases h
    simp [run, hs]
  | x :: ops, h, hs => by
    simp only [run, List.cons_append] at h ⊢
    cases hst : step m x with
    | panic => rw [hst] at h; cases h
    | assertion => rw [hst] at h; cases h
    | ok m1 o1 =>
      rw [hst] at h
      simp only at h ⊢
      cases hr : run m1 ops with
      | panic => rw [hr] at h; cases h
      | assertion => rw [hr] at h; cases h
      | ok m2 o2 =>
        rw [hr] at h
        cases h
        rw [run_snoc hr hs]
        simp

theorem init_links {f : Feats} {l : Link} (h : l ∈ (Mgr.init f).links) : l = .unused := by
  simpa [Mgr.init, maxPeers] using h

theorem init_fine {s : Bool} (f : Feats) : ∀ l ∈ (Mgr.init f).links, LinkFine s l := by
  intro l hl
  rw [init_links hl]
  exact ⟨nofun, fun _ => nofun⟩

theorem init_peers (f : Feats) : PeersOk (Mgr.init f).links [] :=
  ⟨fun a ha => by
    rw [List.count_nil]
    refine List.countP_eq_zero.2 (fun l hl => ?_)
    rw [init_links hl]
    simp [Link.unused, Ne.symm ha], rfl, rfl⟩

theorem init_tidy (f : Feats) : Tidy (.init f) := by
  intro l hl c hc
  rw [init_links hl] at hc
  cases hc

theorem init_holds (P : Nat → Kind → Bool) (f : Feats) : (Mgr.init f).links.countP (Link.holds P) = 0 :=
  List.countP_eq_zero.2 (fun l hl => by rw [init_links hl]; simp [Link.holds, Link.unused])

theorem countP_snoc (P : Nat → Kind → Bool) (ops : List Op) (op : Op) :
    (ops ++ [op]).countP (Op.isCmd P) = ops.countP (Op.isCmd P) + boolNat (op.isCmd P) := by
  simp [List.countP_append, countP_cons']

end Verif.Lmp
