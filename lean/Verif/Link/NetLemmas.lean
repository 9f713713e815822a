import Verif.Link.PhyLemmas
/-!
# Steps of the two ends -/
namespace Verif.Link

/-- The packet of connection `h` that the step takes. -/
def Move.arrived (h : Nat) : Move → List Pkt
  | .rcv k p => if k = h then [p] else []
  | _ => []

/-- The action of the network. -/
def Move.asA (h : Nat) : Move → NAct
  | .cmd c => .hostA c
  | .task => .taskA
  | .rcv k p => if k = h then .arriveA else .otherA k p

/-- The action of the network. -/
def Move.asB (h : Nat) : Move → NAct
  | .cmd c => .hostB c
  | .task => .taskB
  | .rcv k p => if k = h then .arriveB else .otherB k p

theorem nstep_cases {n : Net} {x : NAct} {r : Net × Seen} (h : nstep n x = some r) :
    (r = (n, ⟨x, 0, [], []⟩) ∧ ((x = .arriveA ∧ n.toA = []) ∨ (x = .arriveB ∧ n.toB = []) ∨
      (∃ p, x = .otherA n.ha p) ∨ (∃ p, x = .otherB n.hb p))) ∨
    (∃ (m : Move) (o : Out) (q : List Pkt), m.run n.a = some o ∧ x = m.asA n.ha ∧ n.toA = m.arrived n.ha ++ q ∧ r = putA n x q o) ∨
    (∃ (m : Move) (o : Out) (q : List Pkt), m.run n.b = some o ∧ x = m.asB n.hb ∧ n.toB = m.arrived n.hb ++ q ∧ r = putB n x q o) := by
  cases x with
  | hostA c =>
    simp only [nstep, Option.map_eq_some_iff] at h
    obtain ⟨o, ho, rfl⟩ := h
    exact Or.inr (Or.inl ⟨.cmd c, o, n.toA, ho, rfl, rfl, rfl⟩)
  | hostB c =>
    simp only [nstep, Option.map_eq_some_iff] at h
    obtain ⟨o, ho, rfl⟩ := h
    exact Or.inr (Or.inr ⟨.cmd c, o, n.toB, ho, rfl, rfl, rfl⟩)
  | taskA =>
    simp only [nstep, Option.map_eq_some_iff] at h
    obtain ⟨o, ho, rfl⟩ := h
    exact Or.inr (Or.inl ⟨.task, o, n.toA, ho, rfl, rfl, rfl⟩)
  | taskB =>
    simp only [nstep, Option.map_eq_some_iff] at h
    obtain ⟨o, ho, rfl⟩ := h
    exact Or.inr (Or.inr ⟨.task, o, n.toB, ho, rfl, rfl, rfl⟩)
  | arriveA =>
    simp only [nstep] at h
    split at h
    · rename_i hq
      cases h; exact Or.inl ⟨rfl, Or.inl ⟨rfl, hq⟩⟩
    · rename_i p q hq
      simp only [Option.map_eq_some_iff] at h
      obtain ⟨o, ho, rfl⟩ := h
      exact Or.inr (Or.inl ⟨.rcv n.ha p, o, q, ho, by simp [Move.asA], by simp [Move.arrived, hq], rfl⟩)
  | arriveB =>
    simp only [nstep] at h
    split at h
    · rename_i hq
      cases h; exact Or.inl ⟨rfl, Or.inr (Or.inl ⟨rfl, hq⟩)⟩
    · rename_i p q hq
      simp only [Option.map_eq_some_iff] at h
      obtain ⟨o, ho, rfl⟩ := h
      exact Or.inr (Or.inr ⟨.rcv n.hb p, o, q, ho, by simp [Move.asB], by simp [Move.arrived, hq], rfl⟩)
  | otherA k p =>
    simp only [nstep] at h
    split at h
    · rename_i hk
      cases h; exact Or.inl ⟨rfl, Or.inr (Or.inr (Or.inl ⟨p, by rw [hk]⟩))⟩
    · rename_i hk
      simp only [Option.map_eq_some_iff] at h
      obtain ⟨o, ho, rfl⟩ := h
      exact Or.inr (Or.inl ⟨.rcv k p, o, n.toA, ho, by simp [Move.asA, hk], by simp [Move.arrived, hk], rfl⟩)
  | otherB k p =>
    simp only [nstep] at h
    split at h
    · rename_i hk
      cases h; exact Or.inl ⟨rfl, Or.inr (Or.inr (Or.inr ⟨p, by rw [hk]⟩))⟩
    · rename_i hk
      simp only [Option.map_eq_some_iff] at h
      obtain ⟨o, ho, rfl⟩ := h
      exact Or.inr (Or.inr ⟨.rcv k p, o, n.toB, ho, by simp [Move.asB, hk], by simp [Move.arrived, hk], rfl⟩)

/-- The handles of the link stay. -/
theorem nstep_handles {n : Net} {x : NAct} {r : Net × Seen} (h : nstep n x = some r) :
    r.1.ha = n.ha ∧ r.1.hb = n.hb ∧ r.2.act = x := by
  rcases nstep_cases h with ⟨rfl, _⟩ | ⟨m, o, q, _, _, _, rfl⟩ | ⟨m, o, q, _, _, _, rfl⟩ <;> exact ⟨rfl, rfl, rfl⟩

theorem nrun_cons {n : Net} {x : NAct} {xs : List NAct} {n' : Net} {l : List Seen}
    (h : nrun n (x :: xs) = some (n', l)) :
    ∃ n1 s l1, nstep n x = some (n1, s) ∧ nrun n1 xs = some (n', l1) ∧ l = s :: l1 := by
  simp only [nrun] at h
  split at h
  · cases h
  · rename_i n1 s hs
    simp only [Option.map_eq_some_iff] at h
    obtain ⟨⟨n2, l1⟩, h1, h2⟩ := h
    cases h2
    exact ⟨n1, s, l1, hs, h1, rfl⟩

theorem nrun_handles : ∀ {xs : List NAct} {n n' : Net} {l : List Seen}, nrun n xs = some (n', l) →
    n'.ha = n.ha ∧ n'.hb = n.hb
  | [], n, n', l, h => by cases h; exact ⟨rfl, rfl⟩
  | x :: xs, n, n', l, h => by
    obtain ⟨n1, s, l1, hs, hr, rfl⟩ := nrun_cons h
    have h1 := nstep_handles hs
    have h2 := nrun_handles hr
    exact ⟨h2.1.trans h1.1, h2.2.trans h1.2.1⟩

/-- An invariant of the steps holds along a history. -/
theorem nrun_inv {P : Net → Prop} (step : ∀ n x r, P n → nstep n x = some r → P r.1) :
    ∀ {xs : List NAct} {n n' : Net} {l : List Seen}, nrun n xs = some (n', l) → P n → P n'
  | [], n, n', l, h, hp => by cases h; exact hp
  | x :: xs, n, n', l, h, hp => by
    obtain ⟨n1, s, l1, hs, hr, rfl⟩ := nrun_cons h
    exact nrun_inv step hr (step n x _ hp hs)

theorem known_append (h : Nat) : ∀ (l m : List Ev) (x : Phy × Phy), known h x (l ++ m) = known h (known h x l) m
  | [], _, _ => rfl
  | _ :: l, m, _ => known_append h l m _

theorem known_other {h : Nat} : ∀ {l : List Ev}, (∀ e ∈ l, e.handle ≠ h) → ∀ x, known h x l = x
  | [], _, _ => rfl
  | e :: l, hl, x => by
    have he := hl e (by simp)
    have ih := known_other (fun e he => hl e (List.mem_cons_of_mem _ he)) (l := l)
    cases e <;> simp only [known, Ev.handle] at he ⊢ <;> simp [he, ih]

theorem inds_append (a b : List Pkt) : inds (a ++ b) = inds a ++ inds b := by simp [inds]
theorem noRsp_append (a b : List Pkt) : noRsp (a ++ b) = (noRsp a && noRsp b) := by simp [noRsp]

theorem arrived_other {d : Dev} {m : Move} {h : Nat} (hh : m.handle d ≠ some h) : m.arrived h = [] := by
  cases m with
  | rcv k p =>
    have hk : k ≠ h := fun hc => hh (by simp [Move.handle, hc])
    simp [Move.arrived, hk]
  | _ => rfl

theorem arrived_rcv (h : Nat) (p : Pkt) : (Move.rcv h p).arrived h = [p] := by simp [Move.arrived]

/-- A step of the central. -/
theorem central_move {d : Dev} {m : Move} {o : Out} (hr : m.run d = some o) {h : Nat} {c : Conn} (hc : d.conns h = some c)
    (hrole : c.role = .central) :
    ∃ c', o.dev.conns h = some c' ∧ c'.role = .central ∧
      (inds (over h o.out)).foldl follow (c.rx, c.tx) = (c'.rx, c'.tx) ∧ noRsp (over h o.out) = true ∧
      (leUnmasked d 0x0c = true → known h (c.tx, c.rx) o.ev = (c'.tx, c'.rx)) := by
  by_cases hh : m.handle d = some h
  rotate_left
  · obtain ⟨h1, h2, h3, _⟩ := frame hr hh
    exact ⟨c, h1.trans hc, hrole, by rw [h2]; rfl, by rw [h2]; rfl, fun _ => known_other h3 _⟩
  cases m with
  | task =>
    simp only [Move.run, runTask] at hr
    cases ht : d.tasks with
    | nil => rw [ht] at hr; cases hr; exact ⟨c, hc, hrole, rfl, rfl, fun _ => rfl⟩
    | cons e l =>
      have he : e.handle = h := by simpa [Move.handle, ht] using hh
      subst he
      rw [ht] at hr
      simp only [hc] at hr
      cases hr
      exact ⟨_, put_same _ _ _, hrole, by rw [over_one]; rfl, by rw [over_one]; rfl, fun _ => rfl⟩
  | cmd x =>
    cases x with
    | setDefaultPhy a b tx rx => simp [Move.handle] at hh
    | setMask => simp [Move.handle] at hh
    | setMask2 => simp [Move.handle] at hh
    | setLeMask => simp [Move.handle] at hh
    | setPhy k a b tx rx =>
      obtain rfl : k = h := by simpa [Move.handle] using hh
      simp only [Move.run, command, setPhy, hc] at hr
      (repeat' split at hr) <;> cases hr <;> first
        | exact ⟨c, hc, hrole, rfl, rfl, fun _ => rfl⟩
        | exact ⟨_, put_same _ _ _, hrole, by rw [over_one]; rfl, by rw [over_one]; rfl, fun _ => rfl⟩
    | enable k r e l =>
      obtain rfl : k = h := by simpa [Move.handle] using hh
      simp only [Move.run, command, enable, hc] at hr
      cases hr
      exact ⟨c, hc, hrole, rfl, rfl, fun _ => rfl⟩
    | reply k l =>
      obtain rfl : k = h := by simpa [Move.handle] using hh
      simp only [Move.run, command, reply, hc] at hr
      split at hr <;> cases hr
      · refine ⟨c, hc, hrole, by rw [over_one]; rfl, by rw [over_one]; rfl, fun _ => ?_⟩
        simp only [tell]; split <;> rfl
      · refine ⟨_, put_same _ _ _, hrole, by rw [over_one]; rfl, by rw [over_one]; rfl, fun _ => ?_⟩
        simp only [tell]; (repeat' split) <;> rfl
    | negative k =>
      obtain rfl : k = h := by simpa [Move.handle] using hh
      simp only [Move.run, command, negative, hc] at hr
      cases hr
      exact ⟨c, hc, hrole, by rw [over_one]; rfl, by rw [over_one]; rfl, fun _ => rfl⟩
    | readFeatures k =>
      obtain rfl : k = h := by simpa [Move.handle] using hh
      simp only [Move.run, command, ask, hc] at hr
      cases hr
      exact ⟨c, hc, hrole, by rw [over_one]; rfl, by rw [over_one]; rfl, fun _ => rfl⟩
    | readVersion k =>
      obtain rfl : k = h := by simpa [Move.handle] using hh
      simp only [Move.run, command, ask, hc] at hr
      cases hr
      exact ⟨c, hc, hrole, by rw [over_one]; rfl, by rw [over_one]; rfl, fun _ => rfl⟩
    | acl k pb bc data =>
      obtain rfl : k = h := by simpa [Move.handle] using hh
      simp only [Move.run, command, sendAcl, hc] at hr
      split at hr <;> cases hr
      exact ⟨c, hc, hrole, by rw [over_one]; rfl, by rw [over_one]; rfl, fun _ => rfl⟩
  | rcv k p =>
    obtain rfl : k = h := by simpa [Move.handle] using hh
    simp only [Move.run, receive, hc] at hr
    cases p with
    | phyReq tx rx =>
      simp only [onPhyReq, hrole] at hr
      cases hr
      refine ⟨_, put_same _ _ _, rfl, ?_, by rw [over_one]; rfl, fun hu => ?_⟩
      · rw [over_one]
        simp only [inds, List.filterMap_cons, List.filterMap_nil, List.foldl, follow, select_indicate]
      · simp only [hu, Bool.and_true, tell]
        split
        · simp [known]
        · rename_i hs
          simp only [ne_eq, Bool.or_eq_true, decide_eq_true_eq, not_or, Classical.not_not] at hs
          simp only [known]
          rw [hs.1, hs.2]
    | phyRsp tx rx =>
      simp only [onPhyRsp, hrole] at hr
      cases hr
      refine ⟨_, put_same _ _ _, rfl, ?_, by rw [over_one]; rfl, fun hu => ?_⟩
      · rw [over_one]
        simp only [inds, List.filterMap_cons, List.filterMap_nil, List.foldl, follow, select_indicate]
      · simp only [hu, tell]
        simp [known]
    | phyInd a b => simp only [onPhyInd, hrole] at hr; cases hr
    | enc r e l =>
      cases hr
      refine ⟨_, put_same _ _ _, hrole, rfl, rfl, fun _ => ?_⟩
      simp only [tell]; split <;> rfl
    | encRsp st l =>
      simp only [onEncRsp] at hr
      (repeat' split at hr) <;> cases hr <;> first
        | (refine ⟨c, hc, hrole, rfl, rfl, fun _ => ?_⟩
           simp only [tell]; split <;> rfl)
        | (refine ⟨_, put_same _ _ _, hrole, rfl, rfl, fun _ => ?_⟩
           simp only [tell]; split <;> rfl)
    | featReq => cases hr; exact ⟨c, hc, hrole, by rw [over_one]; rfl, by rw [over_one]; rfl, fun _ => rfl⟩
    | featRsp f st =>
      simp only [onFeatRsp] at hr
      cases hr
      by_cases hst : st = 0
      · refine ⟨{ c with remote := some f }, by simp only [if_pos hst]; exact put_same _ _ _, hrole, rfl, rfl, fun _ => ?_⟩
        simp only [tell]; split <;> rfl
      · refine ⟨c, by simp only [if_neg hst]; exact hc, hrole, rfl, rfl, fun _ => ?_⟩
        simp only [tell]; split <;> rfl
    | verReq => cases hr; exact ⟨c, hc, hrole, by rw [over_one]; rfl, by rw [over_one]; rfl, fun _ => rfl⟩
    | verRsp v s m =>
      cases hr
      refine ⟨c, hc, hrole, rfl, rfl, fun _ => ?_⟩
      simp only [tell]; split <;> rfl
    | acl pb bc data => cases hr; exact ⟨c, hc, hrole, rfl, rfl, fun _ => rfl⟩

/-- A step of the peripheral. -/
theorem peripheral_move {d : Dev} {m : Move} {o : Out} (hr : m.run d = some o) {h : Nat} {c : Conn}
    (hc : d.conns h = some c) (hrole : c.role = .peripheral) :
    ∃ c', o.dev.conns h = some c' ∧ c'.role = .peripheral ∧
      (inds (m.arrived h)).foldl follow (c.tx, c.rx) = (c'.tx, c'.rx) ∧ inds (over h o.out) = [] ∧
      (leUnmasked d 0x0c = true → known h (c.tx, c.rx) o.ev = (c'.tx, c'.rx)) := by
  by_cases hh : m.handle d = some h
  rotate_left
  · obtain ⟨h1, h2, h3, _⟩ := frame hr hh
    exact ⟨c, h1.trans hc, hrole, by rw [arrived_other hh]; rfl, by rw [h2]; rfl, fun _ => known_other h3 _⟩
  cases m with
  | task =>
    simp only [Move.run, runTask] at hr
    cases ht : d.tasks with
    | nil => rw [ht] at hr; cases hr; exact ⟨c, hc, hrole, rfl, rfl, fun _ => rfl⟩
    | cons e l =>
      have he : e.handle = h := by simpa [Move.handle, ht] using hh
      subst he
      rw [ht] at hr
      simp only [hc] at hr
      cases hr
      exact ⟨_, put_same _ _ _, hrole, rfl, by rw [over_one]; rfl, fun _ => rfl⟩
  | cmd x =>
    cases x with
    | setDefaultPhy a b tx rx => simp [Move.handle] at hh
    | setMask => simp [Move.handle] at hh
    | setMask2 => simp [Move.handle] at hh
    | setLeMask => simp [Move.handle] at hh
    | setPhy k a b tx rx =>
      obtain rfl : k = h := by simpa [Move.handle] using hh
      simp only [Move.run, command, setPhy, hc] at hr
      (repeat' split at hr) <;> cases hr <;> first
        | exact ⟨c, hc, hrole, rfl, rfl, fun _ => rfl⟩
        | exact ⟨_, put_same _ _ _, hrole, rfl, by rw [over_one]; rfl, fun _ => rfl⟩
    | enable k r e l =>
      obtain rfl : k = h := by simpa [Move.handle] using hh
      simp only [Move.run, command, enable, hc] at hr
      cases hr
      exact ⟨c, hc, hrole, rfl, rfl, fun _ => rfl⟩
    | reply k l =>
      obtain rfl : k = h := by simpa [Move.handle] using hh
      simp only [Move.run, command, reply, hc] at hr
      split at hr <;> cases hr
      · refine ⟨c, hc, hrole, rfl, by rw [over_one]; rfl, fun _ => ?_⟩
        simp only [tell]; split <;> rfl
      · refine ⟨_, put_same _ _ _, hrole, rfl, by rw [over_one]; rfl, fun _ => ?_⟩
        simp only [tell]; (repeat' split) <;> rfl
    | negative k =>
      obtain rfl : k = h := by simpa [Move.handle] using hh
      simp only [Move.run, command, negative, hc] at hr
      cases hr
      exact ⟨c, hc, hrole, rfl, by rw [over_one]; rfl, fun _ => rfl⟩
    | readFeatures k =>
      obtain rfl : k = h := by simpa [Move.handle] using hh
      simp only [Move.run, command, ask, hc] at hr
      cases hr
      exact ⟨c, hc, hrole, rfl, by rw [over_one]; rfl, fun _ => rfl⟩
    | readVersion k =>
      obtain rfl : k = h := by simpa [Move.handle] using hh
      simp only [Move.run, command, ask, hc] at hr
      cases hr
      exact ⟨c, hc, hrole, rfl, by rw [over_one]; rfl, fun _ => rfl⟩
    | acl k pb bc data =>
      obtain rfl : k = h := by simpa [Move.handle] using hh
      simp only [Move.run, command, sendAcl, hc] at hr
      split at hr <;> cases hr
      exact ⟨c, hc, hrole, rfl, by rw [over_one]; rfl, fun _ => rfl⟩
  | rcv k p =>
    obtain rfl : k = h := by simpa [Move.handle] using hh
    have ha : (Move.rcv k p).arrived k = [p] := by simp [Move.arrived]
    rw [ha]
    simp only [Move.run, receive, hc] at hr
    cases p with
    | phyReq tx rx =>
      simp only [onPhyReq, hrole] at hr
      cases hr
      exact ⟨c, hc, hrole, rfl, by rw [over_one]; rfl, fun _ => rfl⟩
    | phyRsp tx rx => simp only [onPhyRsp, hrole] at hr; cases hr
    | phyInd a b =>
      simp only [onPhyInd, hrole] at hr
      cases hr
      refine ⟨_, put_same _ _ _, rfl, rfl, rfl, fun hu => ?_⟩
      simp only [hu, Bool.true_and, tell]
      split
      · simp [known]
      · rename_i hs
        simp only [ne_eq, Bool.or_eq_true, decide_eq_true_eq, not_or, Classical.not_not] at hs
        simp only [known]
        rw [hs.1.1, hs.1.2]
    | enc r e l =>
      cases hr
      refine ⟨_, put_same _ _ _, hrole, rfl, rfl, fun _ => ?_⟩
      simp only [tell]; split <;> rfl
    | encRsp st l =>
      simp only [onEncRsp] at hr
      (repeat' split at hr) <;> cases hr <;> first
        | (refine ⟨c, hc, hrole, rfl, rfl, fun _ => ?_⟩
           simp only [tell]; split <;> rfl)
        | (refine ⟨_, put_same _ _ _, hrole, rfl, rfl, fun _ => ?_⟩
           simp only [tell]; split <;> rfl)
    | featReq => cases hr; exact ⟨c, hc, hrole, rfl, by rw [over_one]; rfl, fun _ => rfl⟩
    | featRsp f st =>
      simp only [onFeatRsp] at hr
      cases hr
      by_cases hst : st = 0
      · refine ⟨{ c with remote := some f }, by simp only [if_pos hst]; exact put_same _ _ _, hrole, rfl, rfl, fun _ => ?_⟩
        simp only [tell]; split <;> rfl
      · refine ⟨c, by simp only [if_neg hst]; exact hc, hrole, rfl, rfl, fun _ => ?_⟩
        simp only [tell]; split <;> rfl
    | verReq => cases hr; exact ⟨c, hc, hrole, rfl, by rw [over_one]; rfl, fun _ => rfl⟩
    | verRsp v s m =>
      cases hr
      refine ⟨c, hc, hrole, rfl, rfl, fun _ => ?_⟩
      simp only [tell]; split <;> rfl
    | acl pb bc data => cases hr; exact ⟨c, hc, hrole, rfl, rfl, fun _ => rfl⟩

/-- The mask after a step. -/
def Move.mask (d : Dev) : Move → Nat
  | .cmd (.setMask m) => m
  | _ => d.mask

def Move.mask2 (d : Dev) : Move → Nat
  | .cmd (.setMask2 m) => m
  | _ => d.mask2

def Move.leMask (d : Dev) : Move → Nat
  | .cmd (.setLeMask m) => m
  | _ => d.leMask

/-- What a step does not touch. -/
theorem settings {d : Dev} {m : Move} {o : Out} (hr : m.run d = some o) :
    o.dev.mask = m.mask d ∧ o.dev.mask2 = m.mask2 d ∧ o.dev.leMask = m.leMask d ∧ o.dev.features = d.features ∧
    o.dev.version = d.version ∧ o.dev.subversion = d.subversion ∧ o.dev.company = d.company ∧
    o.dev.supported = d.supported := by
  cases m with
  | task =>
    simp only [Move.run, runTask] at hr
    (repeat' split at hr) <;> cases hr <;> exact ⟨rfl, rfl, rfl, rfl, rfl, rfl, rfl, rfl⟩
  | cmd c =>
    cases c <;> simp only [Move.run, command, setDefaultPhy, setPhy, enable, reply, negative, ask, sendAcl] at hr <;>
      (repeat' split at hr) <;> cases hr <;> exact ⟨rfl, rfl, rfl, rfl, rfl, rfl, rfl, rfl⟩
  | rcv k p =>
    simp only [Move.run, receive] at hr
    split at hr
    · cases hr; exact ⟨rfl, rfl, rfl, rfl, rfl, rfl, rfl, rfl⟩
    · cases p <;> simp only [onPhyReq, onPhyRsp, onPhyInd, onEnc, onEncRsp, onFeatRsp] at hr <;>
        (repeat' split at hr) <;> cases hr <;> first
          | exact ⟨rfl, rfl, rfl, rfl, rfl, rfl, rfl, rfl⟩
          | (simp only; split <;> exact ⟨rfl, rfl, rfl, rfl, rfl, rfl, rfl, rfl⟩)

theorem hears_move {d : Dev} {m : Move} {o : Out} (hr : m.run d = some o)
    (hm : ∀ c, m = .cmd c → hearsPhy c = true) (hu : leUnmasked d 0x0c = true) : leUnmasked o.dev 0x0c = true := by
  obtain ⟨h1, h2, h3, -⟩ := settings hr
  simp only [leUnmasked, unmasked, h1, h2, h3] at hu ⊢
  cases m with
  | cmd c =>
    have := hm c rfl
    cases c <;> simp_all [Move.mask, Move.mask2, Move.leMask, hearsPhy]
  | _ => exact hu

/-- Something that holds at first and is kept by each step holds along a history. -/
theorem nrun_track_aux {P : Net → List NAct → List Seen → Prop}
    (step : ∀ n x n1 s xs l, P n xs l → nstep n x = some (n1, s) → P n1 (xs ++ [x]) (l ++ [s])) :
    ∀ {xs : List NAct} {n n' : Net} {l : List Seen} {ys : List NAct} {k : List Seen}, nrun n xs = some (n', l) → P n ys k →
      P n' (ys ++ xs) (k ++ l)
  | [], n, n', l, ys, k, h, hp => by cases h; simpa using hp
  | x :: xs, n, n', l, ys, k, h, hp => by
    obtain ⟨n1, s, l1, hs, hr, rfl⟩ := nrun_cons h
    have := nrun_track_aux step hr (step n x n1 s ys k hp hs)
    simpa using this

theorem nrun_track {P : Net → List NAct → List Seen → Prop}
    (step : ∀ n x n1 s xs l, P n xs l → nstep n x = some (n1, s) → P n1 (xs ++ [x]) (l ++ [s]))
    {xs : List NAct} {n n' : Net} {l : List Seen} (h : nrun n xs = some (n', l)) (hp : P n [] []) : P n' xs l := by
  have := nrun_track_aux step h hp
  simpa using this

theorem cmdsA_snoc (xs : List NAct) (x : NAct) : cmdsA (xs ++ [x]) = cmdsA xs ++ cmdsA [x] := by simp [cmdsA]
theorem cmdsB_snoc (xs : List NAct) (x : NAct) : cmdsB (xs ++ [x]) = cmdsB xs ++ cmdsB [x] := by simp [cmdsB]
theorem eventsA_snoc (l : List Seen) (s : Seen) : eventsA (l ++ [s]) = eventsA l ++ s.evA := by simp [eventsA]
theorem eventsB_snoc (l : List Seen) (s : Seen) : eventsB (l ++ [s]) = eventsB l ++ s.evB := by simp [eventsB]

/-- The command of a step. -/
def Move.cmds : Move → List Cmd
  | .cmd c => [c]
  | _ => []

theorem cmdsA_asA (m : Move) (h : Nat) : cmdsA [m.asA h] = m.cmds := by
  cases m with
  | rcv k p => by_cases hk : k = h <;> simp [cmdsA, Move.asA, hk, Move.cmds]
  | _ => rfl

theorem cmdsB_asB (m : Move) (h : Nat) : cmdsB [m.asB h] = m.cmds := by
  cases m with
  | rcv k p => by_cases hk : k = h <;> simp [cmdsB, Move.asB, hk, Move.cmds]
  | _ => rfl

theorem cmdsA_asB (m : Move) (h : Nat) : cmdsA [m.asB h] = [] := by
  cases m with
  | rcv k p => by_cases hk : k = h <;> simp [cmdsA, Move.asB, hk]
  | _ => rfl

theorem cmdsB_asA (m : Move) (h : Nat) : cmdsB [m.asA h] = [] := by
  cases m with
  | rcv k p => by_cases hk : k = h <;> simp [cmdsB, Move.asA, hk]
  | _ => rfl

/-- A step: nothing, or a step of A, or a step of B. -/
theorem nstep_split {n n1 : Net} {x : NAct} {s : Seen} (h : nstep n x = some (n1, s)) :
    (n1 = n ∧ s.evA = [] ∧ s.evB = [] ∧ cmdsA [x] = [] ∧ cmdsB [x] = []) ∨
    (∃ (m : Move) (o : Out) (q : List Pkt), m.run n.a = some o ∧ n.toA = m.arrived n.ha ++ q ∧
      n1 = { n with a := o.dev, toA := q, toB := n.toB ++ over n.ha o.out } ∧ s.evA = o.ev ∧ s.evB = [] ∧
      cmdsA [x] = m.cmds ∧ cmdsB [x] = [] ∧ s = ⟨x, o.status, o.ev, []⟩ ∧ x = m.asA n.ha) ∨
    (∃ (m : Move) (o : Out) (q : List Pkt), m.run n.b = some o ∧ n.toB = m.arrived n.hb ++ q ∧
      n1 = { n with b := o.dev, toB := q, toA := n.toA ++ over n.hb o.out } ∧ s.evB = o.ev ∧ s.evA = [] ∧
      cmdsB [x] = m.cmds ∧ cmdsA [x] = [] ∧ s = ⟨x, o.status, [], o.ev⟩ ∧ x = m.asB n.hb) := by
  rcases nstep_cases h with ⟨h, hx⟩ | ⟨m, o, q, hm, hx, hq, h⟩ | ⟨m, o, q, hm, hx, hq, h⟩
  · cases h
    rcases hx with ⟨rfl, _⟩ | ⟨rfl, _⟩ | ⟨p, rfl⟩ | ⟨p, rfl⟩ <;> exact Or.inl ⟨rfl, rfl, rfl, rfl, rfl⟩
  · cases h
    exact Or.inr (Or.inl ⟨m, o, q, hm, hq, rfl, rfl, rfl, by rw [hx, cmdsA_asA], by rw [hx, cmdsB_asA], rfl, hx⟩)
  · cases h
    exact Or.inr (Or.inr ⟨m, o, q, hm, hq, rfl, rfl, rfl, by rw [hx, cmdsB_asB], by rw [hx, cmdsA_asB], rfl, hx⟩)

end Verif.Link
