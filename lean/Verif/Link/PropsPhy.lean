import Verif.Link.Effect
/-!
# C75: the two ends of an LE link use the same PHYs, and the hosts know them -/
namespace Verif.Link

/-- The indications on their way turn the peripheral's PHYs into the central's. -/
def PhyInv (n : Net) : Prop := ∃ ca cb, n.a.conns n.ha = some ca ∧ n.b.conns n.hb = some cb ∧ ca.role = .central ∧
  cb.role = .peripheral ∧ (inds n.toB).foldl follow (cb.tx, cb.rx) = (ca.rx, ca.tx) ∧ noRsp n.toB = true ∧ inds n.toA = []

theorem Joined.phyInv {n : Net} (h : Joined n) : PhyInv n :=
  ⟨_, _, h.a, h.b, rfl, rfl, by rw [h.toB]; rfl, by rw [h.toB]; rfl, by rw [h.toA]; rfl⟩

theorem phyInv_step (n : Net) (x : NAct) (r : Net × Seen) (h : PhyInv n) (hs : nstep n x = some r) : PhyInv r.1 := by
  obtain ⟨ca, cb, ha, hb, ra, rb, hf, hn, hi⟩ := h
  rcases nstep_cases hs with ⟨rfl, _⟩ | ⟨m, o, q, hr, hx, hq, rfl⟩ | ⟨m, o, q, hr, hx, hq, rfl⟩
  · exact ⟨ca, cb, ha, hb, ra, rb, hf, hn, hi⟩
  · obtain ⟨c', h1, h2, h3, h4, _⟩ := central_move hr ha ra
    rw [hq, inds_append, List.append_eq_nil_iff] at hi
    refine ⟨c', cb, h1, hb, h2, rb, ?_, ?_, hi.2⟩
    · simp only [putA]
      rw [inds_append, List.foldl_append, hf, h3]
    · simp only [putA]
      rw [noRsp_append, hn, h4]; rfl
  · obtain ⟨c', h1, h2, h3, h4, _⟩ := peripheral_move hr hb rb
    rw [hq, noRsp_append, Bool.and_eq_true] at hn
    rw [hq, inds_append, List.foldl_append, h3] at hf
    refine ⟨ca, c', ha, h1, ra, h2, hf, hn.2, ?_⟩
    simp only [putB]
    rw [inds_append, hi, h4]; rfl

theorem inds_nil {q : List Pkt} (h : ∀ a b, Pkt.phyInd a b ∉ q) : inds q = [] := by
  simp only [inds, List.filterMap_eq_nil_iff]
  intro p hp
  cases p <;> simp
  exact absurd hp (h _ _)

/-- **C75.** Whatever the hosts do, and in whatever order the controllers act, when no PHY update indication is on its
way the central sends on the PHY the peripheral receives on, and receives on the one the peripheral sends on. -/
theorem C75_agree {n n' : Net} {xs : List NAct} {l : List Seen} (h : Joined n) (hr : nrun n xs = some (n', l))
    (hq : ∀ a b, Pkt.phyInd a b ∉ n'.toB) :
    ∃ tx rx, phys n'.a n.ha = some (tx, rx) ∧ phys n'.b n.hb = some (rx, tx) := by
  have hi := nrun_inv phyInv_step hr h.phyInv
  obtain ⟨ca, cb, ha, hb, -, -, hf, -, -⟩ := hi
  obtain ⟨e1, e2⟩ := nrun_handles hr
  rw [e1] at ha
  rw [e2] at hb
  rw [inds_nil hq] at hf
  simp only [List.foldl, Prod.mk.injEq] at hf
  refine ⟨ca.tx, ca.rx, by simp [phys, ha], ?_⟩
  simp [phys, hb, hf.1, hf.2]

theorem receive_some {d : Dev} {h : Nat} {c : Conn} {p : Pkt} (hc : d.conns h = some c)
    (h1 : c.role = .central → inds [p] = []) (h2 : c.role = .peripheral → noRsp [p] = true) :
    receive d h p ≠ none := by
  simp only [receive, hc]
  cases p <;> simp only [onPhyReq, onPhyRsp, onPhyInd, onEnc, onEncRsp, onFeatRsp, ne_eq, reduceCtorEq, not_false_eq_true] <;>
    (repeat' split) <;> first
      | (simp_all [inds, noRsp]; done)
      | (intro hn; cases hn)

/-- **C75.** No history of a link makes a controller abort when a packet of the link arrives. -/
theorem C75_no_abort {n n' : Net} {xs : List NAct} {l : List Seen} (h : Joined n) (hr : nrun n xs = some (n', l)) :
    nstep n' .arriveA ≠ none ∧ nstep n' .arriveB ≠ none := by
  have hi := nrun_inv phyInv_step hr h.phyInv
  obtain ⟨ca, cb, ha, hb, ra, rb, -, hn, hi⟩ := hi
  constructor
  · simp only [nstep]
    split
    · nofun
    · rename_i p q hq
      rw [hq] at hi
      have := receive_some ha (p := p) (fun _ => ?_) (fun h => by rw [ra] at h; cases h)
      · simpa using this
      · rw [show p :: q = [p] ++ q from rfl, inds_append, List.append_eq_nil_iff] at hi
        exact hi.1
  · simp only [nstep]
    split
    · nofun
    · rename_i p q hq
      rw [hq] at hn
      have := receive_some hb (p := p) (fun h => by rw [rb] at h; cases h) (fun _ => ?_)
      · simpa using this
      · rw [show p :: q = [p] ++ q from rfl, noRsp_append, Bool.and_eq_true] at hn
        exact hn.1

theorem leUnmasked_of {d : Dev} (h1 : d.mask.testBit 61 = true) (h2 : d.leMask.testBit 11 = true) :
    leUnmasked d 0x0c = true := by
  simp [leUnmasked, unmasked, h1, h2]

theorem knownA : ∀ {xs : List NAct} {n n' : Net} {l : List Seen}, nrun n xs = some (n', l) → PhyInv n →
    leUnmasked n.a 0x0c = true → (∀ c ∈ cmdsA xs, hearsPhy c = true) →
    ∀ {x}, phys n.a n.ha = some x → phys n'.a n.ha = some (known n.ha x (eventsA l))
  | [], n, n', l, h, _, _, _, x, hx => by cases h; exact hx
  | y :: xs, n, n', l, h, hi, hu, hc, x, hx => by
    obtain ⟨n1, s, l1, hs, hr, rfl⟩ := nrun_cons h
    have hc1 : ∀ c ∈ cmdsA xs, hearsPhy c = true := by
      intro c hcm
      refine hc c ?_
      simp only [cmdsA, List.mem_filterMap, List.mem_cons] at hcm ⊢
      obtain ⟨z, hz, hz'⟩ := hcm
      exact ⟨z, Or.inr hz, hz'⟩
    have hi1 := phyInv_step n y _ hi hs
    have hh := nstep_handles hs
    obtain ⟨ca, cb, ha, hb, ra, rb, -⟩ := hi
    have key : leUnmasked n1.a 0x0c = true ∧ phys n1.a n.ha = some (known n.ha x s.evA) := by
      rcases nstep_cases hs with ⟨h1, _⟩ | ⟨m, o, q, hm, hy, hq, h1⟩ | ⟨m, o, q, hm, hy, hq, h1⟩
      · cases h1; exact ⟨hu, hx⟩
      · cases h1
        refine ⟨hears_move hm (fun c hmc => ?_) hu, ?_⟩
        · subst hmc
          exact hc c (by rw [hy]; simp [cmdsA, Move.asA])
        · obtain ⟨c', h1, -, -, -, h5⟩ := central_move hm ha ra
          have hx' : x = (ca.tx, ca.rx) := by simpa [phys, ha, eq_comm] using hx
          simp only [phys, h1, hx', Option.map_some, h5 hu]
      · cases h1
        exact ⟨hu, hx⟩
    have hk := knownA hr hi1 key.1 hc1 (x := known n.ha x s.evA) (by rw [hh.1]; exact key.2)
    rw [hh.1] at hk
    rw [hk]
    simp only [eventsA, List.flatMap_cons]
    rw [known_append]

theorem knownB : ∀ {xs : List NAct} {n n' : Net} {l : List Seen}, nrun n xs = some (n', l) → PhyInv n →
    leUnmasked n.b 0x0c = true → (∀ c ∈ cmdsB xs, hearsPhy c = true) →
    ∀ {x}, phys n.b n.hb = some x → phys n'.b n.hb = some (known n.hb x (eventsB l))
  | [], n, n', l, h, _, _, _, x, hx => by cases h; exact hx
  | y :: xs, n, n', l, h, hi, hu, hc, x, hx => by
    obtain ⟨n1, s, l1, hs, hr, rfl⟩ := nrun_cons h
    have hc1 : ∀ c ∈ cmdsB xs, hearsPhy c = true := by
      intro c hcm
      refine hc c ?_
      simp only [cmdsB, List.mem_filterMap, List.mem_cons] at hcm ⊢
      obtain ⟨z, hz, hz'⟩ := hcm
      exact ⟨z, Or.inr hz, hz'⟩
    have hi1 := phyInv_step n y _ hi hs
    have hh := nstep_handles hs
    obtain ⟨ca, cb, ha, hb, ra, rb, -⟩ := hi
    have key : leUnmasked n1.b 0x0c = true ∧ phys n1.b n.hb = some (known n.hb x s.evB) := by
      rcases nstep_cases hs with ⟨h1, _⟩ | ⟨m, o, q, hm, hy, hq, h1⟩ | ⟨m, o, q, hm, hy, hq, h1⟩
      · cases h1; exact ⟨hu, hx⟩
      · cases h1
        exact ⟨hu, hx⟩
      · cases h1
        refine ⟨hears_move hm (fun c hmc => ?_) hu, ?_⟩
        · subst hmc
          exact hc c (by rw [hy]; simp [cmdsB, Move.asB])
        · obtain ⟨c', h1, -, -, -, h5⟩ := peripheral_move hm hb rb
          have hx' : x = (cb.tx, cb.rx) := by simpa [phys, hb, eq_comm] using hx
          simp only [phys, h1, hx', Option.map_some, h5 hu]
    have hk := knownB hr hi1 key.1 hc1 (x := known n.hb x s.evB) (by rw [hh.2.1]; exact key.2)
    rw [hh.2.1] at hk
    rw [hk]
    simp only [eventsB, List.flatMap_cons]
    rw [known_append]

/-- **C75.** A host that hears LE PHY Update Complete always knows the PHYs of its connection: 1M at first, and then
those of the last event. -/
theorem C75_known {n n' : Net} {xs : List NAct} {l : List Seen} (h : Joined n) (hr : nrun n xs = some (n', l)) :
    (n.a.mask.testBit 61 = true → n.a.leMask.testBit 11 = true → (∀ c ∈ cmdsA xs, hearsPhy c = true) →
      phys n'.a n.ha = some (known n.ha (.m1, .m1) (eventsA l))) ∧
    (n.b.mask.testBit 61 = true → n.b.leMask.testBit 11 = true → (∀ c ∈ cmdsB xs, hearsPhy c = true) →
      phys n'.b n.hb = some (known n.hb (.m1, .m1) (eventsB l))) := by
  refine ⟨fun hu hv hc => knownA hr h.phyInv (leUnmasked_of hu hv) hc ?_,
    fun hu hv hc => knownB hr h.phyInv (leUnmasked_of hu hv) hc ?_⟩
  · simp [phys, h.a, Conn.fresh]
  · simp [phys, h.b, Conn.fresh]

/-! ## Each request is answered -/

/-- The PHY requests among packets. -/
def reqs (q : List Pkt) : Nat := q.countP (fun p => match p with
  | .phyReq _ _ => true
  | _ => false)

/-- The PHY responses among packets. -/
def rsps (q : List Pkt) : Nat := q.countP (fun p => match p with
  | .phyRsp _ _ => true
  | _ => false)

theorem reqs_append (a b : List Pkt) : reqs (a ++ b) = reqs a + reqs b := by simp [reqs]
theorem rsps_append (a b : List Pkt) : rsps (a ++ b) = rsps a + rsps b := by simp [rsps]

theorem phyEvents_append (h : Nat) (l m : List Ev) : phyEvents h (l ++ m) = phyEvents h l + phyEvents h m := by
  simp [phyEvents]

theorem phyEvents_done (h : Nat) (tx rx : Phy) : phyEvents h [.phyDone h tx rx] = 1 := by simp [phyEvents]

/-- The step is a Set PHY for the connection. -/
def Move.sets (h : Nat) : Move → Bool
  | .cmd (.setPhy k _ _ _ _) => k = h
  | _ => false

theorem sets_other {d : Dev} {m : Move} {h : Nat} (hh : m.handle d ≠ some h) : m.sets h = false := by
  cases m with
  | cmd c => cases c <;> simp_all [Move.sets, Move.handle]
  | _ => rfl

theorem central_count {d : Dev} {m : Move} {o : Out} (hr : m.run d = some o) {h : Nat} {c : Conn} (hc : d.conns h = some c)
    (hu : leUnmasked d 0x0c = true) :
    (if m.sets h = true ∧ o.status = 0 then 1 else 0) = reqs (over h o.out) ∧
    (c.role = .central → rsps (m.arrived h) ≤ phyEvents h o.ev) := by
  by_cases hh : m.handle d = some h
  rotate_left
  · obtain ⟨h1, h2, h3, _⟩ := frame hr hh
    rw [h2, sets_other hh, arrived_other hh]
    exact ⟨rfl, fun _ => Nat.zero_le _⟩
  cases effect hr hc hh <;> (try rw [arrived_rcv]) <;>
    simp_all [Move.sets, reqs, rsps, over_one, over_nil, Move.arrived, tell, phyEvents_done]

theorem peripheral_count {d : Dev} {m : Move} {o : Out} (hr : m.run d = some o) {h : Nat} {c : Conn}
    (hc : d.conns h = some c) (hrole : c.role = .peripheral) : rsps (over h o.out) = reqs (m.arrived h) := by
  by_cases hh : m.handle d = some h
  rotate_left
  · obtain ⟨h1, h2, h3, _⟩ := frame hr hh
    rw [h2, arrived_other hh]
    rfl
  cases effect hr hc hh <;> (try rw [arrived_rcv]) <;>
    simp_all [reqs, rsps, over_one, over_nil, Move.arrived]

theorem hearsA_step {n n1 : Net} {x : NAct} {s : Seen} (hs : nstep n x = some (n1, s))
    (hc : ∀ c, x = .hostA c → hearsPhy c = true) (hu : leUnmasked n.a 0x0c = true) : leUnmasked n1.a 0x0c = true := by
  rcases nstep_cases hs with ⟨h, _⟩ | ⟨m, o, q, hm, hy, hq, h⟩ | ⟨m, o, q, hm, hy, hq, h⟩ <;> cases h
  · exact hu
  · exact hears_move hm (fun c hmc => hc c (by rw [hy, hmc]; rfl)) hu
  · exact hu

theorem hearsB_step {n n1 : Net} {x : NAct} {s : Seen} (hs : nstep n x = some (n1, s))
    (hc : ∀ c, x = .hostB c → hearsPhy c = true) (hu : leUnmasked n.b 0x0c = true) : leUnmasked n1.b 0x0c = true := by
  rcases nstep_cases hs with ⟨h, _⟩ | ⟨m, o, q, hm, hy, hq, h⟩ | ⟨m, o, q, hm, hy, hq, h⟩ <;> cases h
  · exact hu
  · exact hu
  · exact hears_move hm (fun c hmc => hc c (by rw [hy, hmc]; rfl)) hu

theorem setA_putA {n : Net} {m : Move} {q : List Pkt} {o : Out} (h : Nat) :
    setA h (putA n (m.asA n.ha) q o).2 = (m.sets h && o.status = 0) := by
  cases m with
  | cmd c => cases c <;> first
    | rfl
    | (simp [setA, putA, Move.asA, Move.sets]; rfl)
  | task => rfl
  | rcv k p => by_cases hk : k = n.ha <;> simp [setA, putA, Move.asA, Move.sets, hk]

theorem setA_asB {m : Move} (h k st : Nat) (a b : List Ev) : setA h ⟨m.asB k, st, a, b⟩ = false := by
  cases m with
  | cmd c => rfl
  | task => rfl
  | rcv j p => by_cases hk : j = k <;> simp [setA, Move.asB, hk]

theorem setB_putB {n : Net} {m : Move} {q : List Pkt} {o : Out} (h : Nat) :
    setB h (putB n (m.asB n.hb) q o).2 = (m.sets h && o.status = 0) := by
  cases m with
  | cmd c => cases c <;> first
    | rfl
    | (simp [setB, putB, Move.asB, Move.sets]; rfl)
  | task => rfl
  | rcv k p => by_cases hk : k = n.hb <;> simp [setB, putB, Move.asB, Move.sets, hk]

theorem setB_asA {m : Move} (h k st : Nat) (a b : List Ev) : setB h ⟨m.asA k, st, a, b⟩ = false := by
  cases m with
  | cmd c => rfl
  | task => rfl
  | rcv j p => by_cases hk : j = k <;> simp [setB, Move.asA, hk]

theorem count_step {n n1 : Net} {x : NAct} {s : Seen} (hi : PhyInv n) (hs : nstep n x = some (n1, s))
    (hu : leUnmasked n.a 0x0c = true) :
    (if setA n.ha s = true then 1 else 0) + reqs n.toB + rsps n.toA ≤ phyEvents n.ha s.evA + reqs n1.toB + rsps n1.toA := by
  obtain ⟨ca, cb, ha, hb, ra, rb, -⟩ := hi
  rcases nstep_cases hs with ⟨h, hx⟩ | ⟨m, o, q, hm, hy, hq, h⟩ | ⟨m, o, q, hm, hy, hq, h⟩
  · cases h
    have : setA n.ha ⟨x, 0, [], []⟩ = false := by
      rcases hx with ⟨rfl, _⟩ | ⟨rfl, _⟩ | ⟨p, rfl⟩ | ⟨p, rfl⟩ <;> rfl
    simp [this]
  · cases h
    obtain ⟨h1, h2⟩ := central_count hm ha hu
    have h2 := h2 ra
    have h3 := setA_putA (n := n) (m := m) (q := q) (o := o) n.ha
    simp only [putA, hy] at h3 ⊢
    rw [h3, hq, rsps_append, reqs_append]
    simp only [Bool.and_eq_true, decide_eq_true_eq]
    rw [h1]
    omega
  · cases h
    have h1 := peripheral_count hm hb rb
    simp only [putB, hy, setA_asB, Bool.false_eq_true, if_false]
    rw [hq, rsps_append, reqs_append]
    omega

theorem count_run {xs : List NAct} {n n' : Net} {l : List Seen} (h : nrun n xs = some (n', l)) (hi : PhyInv n)
    (hu : leUnmasked n.a 0x0c = true) (hc : ∀ c ∈ cmdsA xs, hearsPhy c = true) :
    l.countP (setA n.ha) + reqs n.toB + rsps n.toA ≤ phyEvents n.ha (eventsA l) + reqs n'.toB + rsps n'.toA := by
  induction xs generalizing n n' l with
  | nil => cases h; simp
  | cons y xs ih =>
    obtain ⟨n1, s, l1, hs, hr, rfl⟩ := nrun_cons h
    have hc1 : ∀ c ∈ cmdsA xs, hearsPhy c = true := by
      intro c hcm
      refine hc c ?_
      simp only [cmdsA, List.mem_filterMap, List.mem_cons] at hcm ⊢
      obtain ⟨z, hz, hz'⟩ := hcm
      exact ⟨z, Or.inr hz, hz'⟩
    have hh := nstep_handles hs
    have h1 := ih hr (phyInv_step n y _ hi hs)
      (hearsA_step hs (fun c hy => hc c (hy ▸ by simp [cmdsA])) hu) hc1
    have h2 := count_step hi hs hu
    rw [hh.1] at h1
    simp only [eventsA, List.flatMap_cons, List.countP_cons] at h1 ⊢
    rw [phyEvents_append]
    omega

/-- **C75.** Each Set PHY that the central's controller accepts is answered: when no PHY request or response is on its
way, its host has been told of at least as many updates. -/
theorem C75_answered {n n' : Net} {xs : List NAct} {l : List Seen} (h : Joined n) (hr : nrun n xs = some (n', l))
    (hu : n.a.mask.testBit 61 = true) (hv : n.a.leMask.testBit 11 = true) (hc : ∀ c ∈ cmdsA xs, hearsPhy c = true)
    (hqa : ∀ a b, Pkt.phyRsp a b ∉ n'.toA) (hqb : ∀ a b, Pkt.phyReq a b ∉ n'.toB) :
    l.countP (setA n.ha) ≤ phyEvents n.ha (eventsA l) := by
  have h1 := count_run hr h.phyInv (leUnmasked_of hu hv) hc
  have e1 : reqs n'.toB = 0 := by
    simp only [reqs, List.countP_eq_zero]
    intro p hp
    cases p <;> simp
    exact absurd hp (hqb _ _)
  have e2 : rsps n'.toA = 0 := by
    simp only [rsps, List.countP_eq_zero]
    intro p hp
    cases p <;> simp
    exact absurd hp (hqa _ _)
  omega

theorem central_req {d : Dev} {m : Move} {o : Out} (hr : m.run d = some o) {h : Nat} {c : Conn} (hc : d.conns h = some c)
    (hrole : c.role = .central) (hq : 0 < reqs (m.arrived h)) : inds (over h o.out) ≠ [] := by
  by_cases hh : m.handle d = some h
  rotate_left
  · rw [arrived_other hh] at hq
    simp [reqs] at hq
  cases effect hr hc hh <;> (try rw [arrived_rcv] at hq) <;> simp_all [reqs, over_one, inds, Move.arrived]

theorem peripheral_req {d : Dev} {m : Move} {o : Out} (hr : m.run d = some o) {h : Nat} {c : Conn}
    (hc : d.conns h = some c) (hu : leUnmasked d 0x0c = true) :
    (m.sets h = true → o.status = 0 → 0 < reqs (over h o.out) ∧ ∃ c', o.dev.conns h = some c' ∧ c'.initiated = true) ∧
    (c.role = .peripheral → c.initiated = true → inds (m.arrived h) ≠ [] → phyEvents h o.ev ≠ 0) ∧
    (inds (m.arrived h) = [] → c.role = .peripheral → c.initiated = true → ∃ c', o.dev.conns h = some c' ∧ c'.initiated = true) := by
  by_cases hh : m.handle d = some h
  rotate_left
  · obtain ⟨h1, h2, h3, _⟩ := frame hr hh
    rw [sets_other hh, arrived_other hh, h1]
    exact ⟨nofun, fun _ _ h => absurd rfl h, fun _ _ hi => ⟨c, hc, hi⟩⟩
  cases effect hr hc hh <;> (try rw [arrived_rcv]) <;>
    simp_all [Move.sets, reqs, over_one, inds, put, Move.arrived, tell, phyEvents_done]

theorem waits_step {n n1 : Net} {x : NAct} {s : Seen} (hi : PhyInv n) (hs : nstep n x = some (n1, s))
    (hu : leUnmasked n.b 0x0c = true) {w : Bool}
    (hw : w = true → (∃ c, n.b.conns n.hb = some c ∧ c.initiated = true) ∧ (0 < reqs n.toA ∨ inds n.toB ≠ [])) :
    (phyEvents n.hb s.evB = 0 && (setB n.hb s || w)) = true →
      (∃ c, n1.b.conns n.hb = some c ∧ c.initiated = true) ∧ (0 < reqs n1.toA ∨ inds n1.toB ≠ []) := by
  intro hw'
  simp only [Bool.and_eq_true, decide_eq_true_eq, Bool.or_eq_true] at hw'
  obtain ⟨hev, hw'⟩ := hw'
  obtain ⟨ca, cb, ha, hb, ra, rb, -⟩ := hi
  rcases nstep_cases hs with ⟨h, hx⟩ | ⟨m, o, q, hm, hy, hq, h⟩ | ⟨m, o, q, hm, hy, hq, h⟩
  · cases h
    have : setB n.hb ⟨x, 0, [], []⟩ = false := by
      rcases hx with ⟨rfl, _⟩ | ⟨rfl, _⟩ | ⟨p, rfl⟩ | ⟨p, rfl⟩ <;> rfl
    rw [this] at hw'
    exact hw (by simpa using hw')
  · cases h
    simp only [hy, setB_asA, Bool.false_eq_true, false_or] at hw'
    obtain ⟨h1, h2⟩ := hw hw'
    refine ⟨h1, ?_⟩
    simp only [putA]
    rcases h2 with h2 | h2
    · rw [hq, reqs_append] at h2
      by_cases h3 : 0 < reqs q
      · exact Or.inl h3
      · refine Or.inr ?_
        rw [inds_append]
        intro hc
        exact central_req hm ha ra (by omega) (List.append_eq_nil_iff.mp hc).2
    · refine Or.inr ?_
      rw [inds_append]
      intro hc
      exact h2 (List.append_eq_nil_iff.mp hc).1
  · cases h
    obtain ⟨h1, h2, h3⟩ := peripheral_req hm hb hu
    have h4 := setB_putB (n := n) (m := m) (q := q) (o := o) n.hb
    simp only [putB, hy] at h4 hw' ⊢
    rw [h4] at hw'
    rcases hw' with hw' | hw'
    · simp only [Bool.and_eq_true, decide_eq_true_eq] at hw'
      obtain ⟨h5, h6⟩ := h1 hw'.1 hw'.2
      refine ⟨h6, Or.inl ?_⟩
      rw [reqs_append]; omega
    · obtain ⟨⟨c, h5, h6⟩, h7⟩ := hw hw'
      rw [hb] at h5
      cases h5
      have h8 : inds (m.arrived n.hb) = [] := by
        apply Classical.byContradiction
        intro hne
        exact h2 rb h6 hne hev
      refine ⟨h3 h8 rb h6, ?_⟩
      rw [reqs_append]
      rcases h7 with h7 | h7
      · exact Or.inl (by omega)
      · rw [hq, inds_append, h8] at h7
        exact Or.inr h7

theorem waits_run {xs : List NAct} {n n' : Net} {l : List Seen} {w : Bool} (h : nrun n xs = some (n', l)) (hi : PhyInv n)
    (hu : leUnmasked n.b 0x0c = true) (hc : ∀ c ∈ cmdsB xs, hearsPhy c = true)
    (hw : w = true → (∃ c, n.b.conns n.hb = some c ∧ c.initiated = true) ∧ (0 < reqs n.toA ∨ inds n.toB ≠ []))
    (hl : waits n.hb w l = true) : 0 < reqs n'.toA ∨ inds n'.toB ≠ [] := by
  induction xs generalizing n n' l w with
  | nil => cases h; exact (hw hl).2
  | cons y xs ih =>
    obtain ⟨n1, s, l1, hs, hr, rfl⟩ := nrun_cons h
    have hc1 : ∀ c ∈ cmdsB xs, hearsPhy c = true := by
      intro c hcm
      refine hc c ?_
      simp only [cmdsB, List.mem_filterMap, List.mem_cons] at hcm ⊢
      obtain ⟨z, hz, hz'⟩ := hcm
      exact ⟨z, Or.inr hz, hz'⟩
    have hh := nstep_handles hs
    have h2 := waits_step hi hs hu hw
    rw [waits, ← hh.2.1] at hl
    rw [← hh.2.1] at h2
    exact ih hr (phyInv_step n y _ hi hs)
      (hearsB_step hs (fun c hy => hc c (hy ▸ by simp [cmdsB])) hu) hc1 h2 hl

/-- **C75.** The peripheral's host is told of an update after its last Set PHY, at the latest when neither a PHY request
nor an update indication is on its way. (It is not told once for each Set PHY: `C75_each_violated`.) -/
theorem C75_peripheral {n n' : Net} {xs : List NAct} {l : List Seen} (h : Joined n) (hr : nrun n xs = some (n', l))
    (hu : n.b.mask.testBit 61 = true) (hv : n.b.leMask.testBit 11 = true) (hc : ∀ c ∈ cmdsB xs, hearsPhy c = true)
    (hqa : ∀ a b, Pkt.phyReq a b ∉ n'.toA) (hqb : ∀ a b, Pkt.phyInd a b ∉ n'.toB) : waits n.hb false l = false := by
  cases hw : waits n.hb false l
  · rfl
  · have h1 := waits_run (w := false) hr h.phyInv (leUnmasked_of hu hv) hc nofun hw
    rw [inds_nil hqb] at h1
    have e1 : reqs n'.toA = 0 := by
      simp only [reqs, List.countP_eq_zero]
      intro p hp
      cases p <;> simp
      exact absurd hp (hqa _ _)
    rw [e1] at h1
    simp at h1

/-! ## The choice -/

theorem testBit_and_has (a b : Nat) (p : Phy) : (a &&& b).testBit p.bit = (has a p && has b p) := by
  simp [has, Nat.testBit_and]

theorem select_chosen (mine theirs : Nat) (old : Phy) : chosen mine theirs old (select (theirs &&& mine) old) := by
  have h0 := testBit_and_has theirs mine .m1
  have h1 := testBit_and_has theirs mine .m2
  have h2 := testBit_and_has theirs mine .coded
  simp only [Phy.bit] at h0 h1 h2
  unfold select
  rw [h0, h1, h2]
  constructor
  · rintro ⟨p, hp, hq⟩
    split
    · rename_i h; simp at h; exact ⟨h.2, h.1⟩
    · split
      · rename_i h; simp at h; exact ⟨h.2, h.1⟩
      · split
        · rename_i h; simp at h; exact ⟨h.2, h.1⟩
        · cases p <;> simp_all
  · intro hn
    have hp : ∀ p, (has theirs p && has mine p) = false := by
      intro p
      cases h1 : has theirs p <;> cases h2 : has mine p <;> first
        | rfl
        | exact absurd ⟨p, h2, h1⟩ hn
    simp [hp]

theorem select_self (p old : Phy) : (select (indicate p old) old = old ↔ p = old) := by
  rw [select_indicate]

/-- **C75.** Set PHY by the central: each direction gets a PHY that the central's host asks for and the peripheral's host
prefers, or stays as it is if there is none. The central's host is told, and the peripheral's if something changes. -/
theorem C75_choice_central (n : Net) (ca cb : Conn) (ha : n.a.conns n.ha = some ca) (hb : n.b.conns n.hb = some cb)
    (ra : ca.role = .central) (rb : cb.role = .peripheral) (hsame : ca.tx = cb.rx ∧ ca.rx = cb.tx)
    (hq : n.toA = [] ∧ n.toB = []) (hua : n.a.mask.testBit 61 = true ∧ n.a.leMask.testBit 11 = true)
    (hub : n.b.mask.testBit 61 = true ∧ n.b.leMask.testBit 11 = true) (anyTx anyRx : Bool) (tx rx : Nat)
    (hs : (command n.a (.setPhy n.ha anyTx anyRx tx rx)).map (·.status) = some 0) :
    ∃ n' l newTx newRx, nrun n [.hostA (.setPhy n.ha anyTx anyRx tx rx), .arriveB, .arriveA, .arriveB] = some (n', l) ∧
      phys n'.a n.ha = some (newTx, newRx) ∧ phys n'.b n.hb = some (newRx, newTx) ∧
      chosen (asked n.a.supported anyTx tx) n.b.defRx ca.tx newTx ∧
      chosen (asked n.a.supported anyRx rx) n.b.defTx ca.rx newRx ∧
      eventsA l = [.phyDone n.ha newTx newRx] ∧
      eventsB l = (if newTx = ca.tx ∧ newRx = ca.rx ∧ cb.initiated = false then [] else [.phyDone n.hb newRx newTx]) := by
  have hua' : leUnmasked n.a 0x0c = true := leUnmasked_of hua.1 hua.2
  have hub' : leUnmasked n.b 0x0c = true := leUnmasked_of hub.1 hub.2
  have hset : command n.a (.setPhy n.ha anyTx anyRx tx rx) =
      some ⟨0, { put n.a n.ha { ca with initiated := true } with reqTx := wanted n.a anyTx tx, reqRx := wanted n.a anyRx rx },
        [(n.ha, .phyReq (wanted n.a anyTx tx) (wanted n.a anyRx rx))], []⟩ := by
    simp only [command, setPhy, ha] at hs ⊢
    (repeat' split at hs) <;> simp [invalid, unsupported] at hs
    simp_all
  obtain ⟨a, b, kA, kB, toA, toB⟩ := n
  simp only at *
  obtain ⟨rfl, rfl⟩ := hq
  generalize hrun : nrun ⟨a, b, kA, kB, [], []⟩ [.hostA (.setPhy kA anyTx anyRx tx rx), .arriveB, .arriveA, .arriveB] = res
  simp only [nrun, nstep, hset, Option.map_some, putA, putB, List.nil_append, over_one, receive, hb, onPhyReq, rb, if_true,
    put_same, onPhyRsp, ra, over_nil, List.append_nil, onPhyInd, reduceCtorEq, if_false, select_indicate] at hrun
  subst hrun
  refine ⟨_, _, select (b.defRx &&& wanted a anyTx tx) ca.tx, select (b.defTx &&& wanted a anyRx rx) ca.rx, rfl, ?_, ?_,
    select_chosen _ _ _, select_chosen _ _ _, ?_, ?_⟩
  · simp [phys, put]
  · simp only [phys, put, if_true, Option.map_some]
    rw [← hsame.1, ← hsame.2, select_indicate, select_indicate]
  · simp [eventsA, tell, leUnmasked, unmasked, put, hua]
  · simp only [eventsB, List.flatMap_cons, List.flatMap_nil, List.nil_append, List.append_nil]
    rw [← hsame.1, ← hsame.2, select_indicate, select_indicate, hub']
    simp only [tell, Bool.true_and, ne_eq]
    split
    · rename_i h
      rw [if_neg]
      rintro ⟨h1, h2, h3⟩
      simp [h1, h2, h3] at h
    · rename_i h
      simp at h
      rw [if_pos ⟨h.1.2, h.1.1, h.2⟩]

/-- **C75.** Set PHY by the peripheral: likewise, with the preferences of the central's host. -/
theorem C75_choice_peripheral (n : Net) (ca cb : Conn) (ha : n.a.conns n.ha = some ca) (hb : n.b.conns n.hb = some cb)
    (ra : ca.role = .central) (rb : cb.role = .peripheral) (hsame : ca.tx = cb.rx ∧ ca.rx = cb.tx)
    (hq : n.toA = [] ∧ n.toB = []) (hua : n.a.mask.testBit 61 = true ∧ n.a.leMask.testBit 11 = true)
    (hub : n.b.mask.testBit 61 = true ∧ n.b.leMask.testBit 11 = true) (anyTx anyRx : Bool) (tx rx : Nat)
    (hs : (command n.b (.setPhy n.hb anyTx anyRx tx rx)).map (·.status) = some 0) :
    ∃ n' l newTx newRx, nrun n [.hostB (.setPhy n.hb anyTx anyRx tx rx), .arriveA, .arriveB] = some (n', l) ∧
      phys n'.b n.hb = some (newTx, newRx) ∧ phys n'.a n.ha = some (newRx, newTx) ∧
      chosen n.a.defRx (asked n.b.supported anyTx tx) cb.tx newTx ∧
      chosen n.a.defTx (asked n.b.supported anyRx rx) cb.rx newRx ∧
      eventsB l = [.phyDone n.hb newTx newRx] ∧
      eventsA l = (if newTx = cb.tx ∧ newRx = cb.rx then [] else [.phyDone n.ha newRx newTx]) := by
  have hua' : leUnmasked n.a 0x0c = true := leUnmasked_of hua.1 hua.2
  have hub' : leUnmasked n.b 0x0c = true := leUnmasked_of hub.1 hub.2
  have hset : command n.b (.setPhy n.hb anyTx anyRx tx rx) =
      some ⟨0, { put n.b n.hb { cb with initiated := true } with reqTx := wanted n.b anyTx tx, reqRx := wanted n.b anyRx rx },
        [(n.hb, .phyReq (wanted n.b anyTx tx) (wanted n.b anyRx rx))], []⟩ := by
    simp only [command, setPhy, hb] at hs ⊢
    (repeat' split at hs) <;> simp [invalid, unsupported] at hs
    simp_all
  obtain ⟨a, b, kA, kB, toA, toB⟩ := n
  simp only at *
  obtain ⟨rfl, rfl⟩ := hq
  generalize hrun : nrun ⟨a, b, kA, kB, [], []⟩ [.hostB (.setPhy kB anyTx anyRx tx rx), .arriveA, .arriveB] = res
  simp only [nrun, nstep, hset, Option.map_some, putA, putB, List.nil_append, over_one, receive, ha, onPhyReq, ra, if_true,
    put_same, rb, over_nil, List.append_nil, onPhyInd, reduceCtorEq, if_false, select_indicate] at hrun
  subst hrun
  refine ⟨_, _, select (wanted b anyTx tx &&& a.defRx) cb.tx, select (wanted b anyRx rx &&& a.defTx) cb.rx, rfl, ?_, ?_,
    select_chosen _ _ _, select_chosen _ _ _, ?_, ?_⟩
  · simp only [phys, put, if_true, Option.map_some]
    rw [hsame.1, hsame.2, select_indicate, select_indicate]
  · simp only [phys, put, if_true, Option.map_some]
    rw [hsame.1, hsame.2]
  · simp only [eventsB, List.flatMap_cons, List.flatMap_nil, List.nil_append, List.append_nil]
    rw [hsame.1, hsame.2, select_indicate, select_indicate]
    simp [tell, leUnmasked, unmasked, put, hub]
  · simp only [eventsA, List.flatMap_cons, List.flatMap_nil, List.nil_append, List.append_nil]
    rw [hsame.1, hsame.2, hua']
    simp only [tell, Bool.and_true, ne_eq]
    split
    · rename_i h
      rw [if_neg]
      rintro ⟨h1, h2⟩
      simp [h1, h2] at h
    · rename_i h
      simp at h
      rw [if_pos ⟨h.2, h.1⟩]

theorem beyond_iff {d : Dev} {s : Nat} (hs : s < 256) :
    beyond d s = true ↔ ∃ i, s.testBit i = true ∧ d.supported.testBit i = false := by
  simp only [beyond, ne_eq, decide_eq_true_eq]
  constructor
  · intro h
    apply Classical.byContradiction
    intro hn
    apply h
    apply Nat.eq_of_testBit_eq
    intro i
    simp only [Nat.testBit_and, Nat.testBit_xor, Nat.zero_testBit]
    cases hi : s.testBit i
    · rfl
    · have h1 : d.supported.testBit i = true := by
        cases h2 : d.supported.testBit i
        · exact absurd ⟨i, hi, h2⟩ hn
        · rfl
      have hlt : i < 8 := by
        apply Classical.byContradiction
        intro hge
        have : s.testBit i = false := Nat.testBit_lt_two_pow (Nat.lt_of_lt_of_le hs (show 2 ^ 8 ≤ 2 ^ i from
          Nat.pow_le_pow_right (by decide) (by omega)))
        rw [this] at hi; cases hi
      have h255 : (255 : Nat).testBit i = true := by
        have : ∀ j, j < 8 → (255 : Nat).testBit j = true := by decide
        exact this i hlt
      rw [h1, h255]; rfl
  · rintro ⟨i, h1, h2⟩ h
    have hlt : i < 8 := by
      apply Classical.byContradiction
      intro hge
      have : s.testBit i = false := Nat.testBit_lt_two_pow (Nat.lt_of_lt_of_le hs (show 2 ^ 8 ≤ 2 ^ i from
        Nat.pow_le_pow_right (by decide) (by omega)))
      rw [this] at h1; cases h1
    have h255 : (255 : Nat).testBit i = true := by
      have : ∀ j, j < 8 → (255 : Nat).testBit j = true := by decide
      exact this i hlt
    have : (s &&& (255 ^^^ d.supported)).testBit i = true := by
      simp [Nat.testBit_and, Nat.testBit_xor, h1, h2, h255]
    rw [h] at this
    simp at this

/-- **C75.** Set PHY is accepted if the connection exists, and each direction names at least one PHY and only PHYs the
controller supports. Otherwise the status says why and nothing happens. -/
theorem C75_accept (d : Dev) (h : Nat) (anyTx anyRx : Bool) (tx rx : Nat) (hsup : d.supported < 256) (htx : tx < 256)
    (hrx : rx < 256) :
    ∃ o, command d (.setPhy h anyTx anyRx tx rx) = some o ∧
      (o.status = 0 ↔ (d.conns h).isSome = true ∧
        (∀ s, s = asked d.supported anyTx tx ∨ s = asked d.supported anyRx rx →
          s ≠ 0 ∧ ∀ i, s.testBit i = true → d.supported.testBit i = true)) ∧
      (o.status = 0x02 ↔ d.conns h = none) ∧
      (o.status = 0 ∨ o.status = 0x02 ∨ o.status = 0x11 ∨ o.status = 0x12) ∧
      (o.status ≠ 0 → o.dev = d ∧ o.out = [] ∧ o.ev = []) := by
  have hw : ∀ any s, s < 256 → wanted d any s < 256 := by
    intro any s hs; unfold wanted; split <;> assumption
  have hb : ∀ any s, s < 256 → (beyond d (wanted d any s) = false ↔
      ∀ i, (asked d.supported any s).testBit i = true → d.supported.testBit i = true) := by
    intro any s hs
    have h1 := beyond_iff (d := d) (hw any s hs)
    constructor
    · intro hf i hi
      cases h2 : d.supported.testBit i
      · rw [h1.mpr ⟨i, hi, h2⟩] at hf; cases hf
      · rfl
    · intro hall
      cases hc : beyond d (wanted d any s)
      · rfl
      · obtain ⟨i, hi, h2⟩ := h1.mp hc
        rw [hall i hi] at h2; cases h2
  have e1 : wanted d anyTx tx = asked d.supported anyTx tx := rfl
  have e2 : wanted d anyRx rx = asked d.supported anyRx rx := rfl
  have bt := hb anyTx tx htx
  have br := hb anyRx rx hrx
  simp only [command, setPhy]
  cases hc : d.conns h with
  | none => exact ⟨_, rfl, by simp, by simp, by simp, fun _ => ⟨rfl, rfl, rfl⟩⟩
  | some c =>
    simp only
    by_cases z1 : wanted d anyTx tx = 0
    · rw [if_pos z1]
      exact ⟨_, rfl, ⟨fun h => (by cases h), fun h => absurd z1 (h.2 _ (Or.inl rfl)).1⟩, by simp [invalid], by simp [invalid],
        fun _ => ⟨rfl, rfl, rfl⟩⟩
    rw [if_neg z1]
    by_cases z2 : wanted d anyRx rx = 0
    · rw [if_pos z2]
      exact ⟨_, rfl, ⟨fun h => (by cases h), fun h => absurd z2 (h.2 _ (Or.inr rfl)).1⟩, by simp [invalid], by simp [invalid],
        fun _ => ⟨rfl, rfl, rfl⟩⟩
    rw [if_neg z2]
    by_cases z3 : beyond d (wanted d anyTx tx) = true
    · rw [if_pos z3]
      refine ⟨_, rfl, ⟨fun h => (by cases h), fun h => ?_⟩, by simp [unsupported], by simp [unsupported],
        fun _ => ⟨rfl, rfl, rfl⟩⟩
      rw [bt.mpr (h.2 _ (Or.inl rfl)).2] at z3; cases z3
    rw [if_neg z3]
    by_cases z4 : beyond d (wanted d anyRx rx) = true
    · rw [if_pos z4]
      refine ⟨_, rfl, ⟨fun h => (by cases h), fun h => ?_⟩, by simp [unsupported], by simp [unsupported],
        fun _ => ⟨rfl, rfl, rfl⟩⟩
      rw [br.mpr (h.2 _ (Or.inr rfl)).2] at z4; cases z4
    rw [if_neg z4]
    refine ⟨_, rfl, ⟨fun _ => ⟨rfl, ?_⟩, fun _ => rfl⟩, by simp, by simp, fun h => absurd rfl h⟩
    rintro s (rfl | rfl)
    · exact ⟨z1, bt.mp (by simpa using z3)⟩
    · exact ⟨z2, br.mp (by simpa using z4)⟩

/-- **C75.** Set Default PHY is accepted if each direction names at least one PHY and only PHYs the controller supports.
Then the preferences of the host for sending and for receiving, which count in `C75_choice_central` and
`C75_choice_peripheral`, are the named ones. Otherwise the status says why and they stay. -/
theorem C75_default (d : Dev) (anyTx anyRx : Bool) (tx rx : Nat) (hsup : d.supported < 256) (htx : tx < 256)
    (hrx : rx < 256) :
    ∃ o, command d (.setDefaultPhy anyTx anyRx tx rx) = some o ∧
      (o.status = 0 ↔ ∀ s, s = asked d.supported anyTx tx ∨ s = asked d.supported anyRx rx →
          s ≠ 0 ∧ ∀ i, s.testBit i = true → d.supported.testBit i = true) ∧
      (o.status = 0 ∨ o.status = 0x11 ∨ o.status = 0x12) ∧ o.out = [] ∧ o.ev = [] ∧
      o.dev = (if o.status = 0
        then { d with defTx := asked d.supported anyTx tx, defRx := asked d.supported anyRx rx } else d) := by
  have hw : ∀ any s, s < 256 → wanted d any s < 256 := by
    intro any s hs; unfold wanted; split <;> assumption
  have hb : ∀ any s, s < 256 → (beyond d (wanted d any s) = false ↔
      ∀ i, (asked d.supported any s).testBit i = true → d.supported.testBit i = true) := by
    intro any s hs
    have h1 := beyond_iff (d := d) (hw any s hs)
    constructor
    · intro hf i hi
      cases h2 : d.supported.testBit i
      · rw [h1.mpr ⟨i, hi, h2⟩] at hf; cases hf
      · rfl
    · intro hall
      cases hc : beyond d (wanted d any s)
      · rfl
      · obtain ⟨i, hi, h2⟩ := h1.mp hc
        rw [hall i hi] at h2; cases h2
  have bt := hb anyTx tx htx
  have br := hb anyRx rx hrx
  simp only [command, setDefaultPhy]
  by_cases z1 : wanted d anyTx tx = 0
  · rw [if_pos z1]
    exact ⟨_, rfl, ⟨fun h => (by cases h), fun h => absurd z1 (h _ (Or.inl rfl)).1⟩, by simp [invalid], rfl, rfl, rfl⟩
  rw [if_neg z1]
  by_cases z2 : wanted d anyRx rx = 0
  · rw [if_pos z2]
    exact ⟨_, rfl, ⟨fun h => (by cases h), fun h => absurd z2 (h _ (Or.inr rfl)).1⟩, by simp [invalid], rfl, rfl, rfl⟩
  rw [if_neg z2]
  by_cases z3 : beyond d (wanted d anyTx tx) = true
  · rw [if_pos z3]
    refine ⟨_, rfl, ⟨fun h => (by cases h), fun h => ?_⟩, by simp [unsupported], rfl, rfl, rfl⟩
    rw [bt.mpr (h _ (Or.inl rfl)).2] at z3; cases z3
  rw [if_neg z3]
  by_cases z4 : beyond d (wanted d anyRx rx) = true
  · rw [if_pos z4]
    refine ⟨_, rfl, ⟨fun h => (by cases h), fun h => ?_⟩, by simp [unsupported], rfl, rfl, rfl⟩
    rw [br.mpr (h _ (Or.inr rfl)).2] at z4; cases z4
  rw [if_neg z4]
  refine ⟨_, rfl, ⟨fun _ => ?_, fun _ => rfl⟩, by simp, rfl, rfl, rfl⟩
  rintro s (rfl | rfl)
  · exact ⟨z1, bt.mp (by simpa using z3)⟩
  · exact ⟨z2, br.mp (by simpa using z4)⟩

/-! ## A link -/

/-- A controller of a link with the given role; it supports all PHYs, hears all events and has the features 0xff. -/
def demoDev (h : Nat) (r : Role) : Dev :=
  ⟨fun k => if k = h then some (Conn.fresh r) else none, 7, 7, 7, 0, 0, 0xff, 13, 0x123, 0xe0, 2 ^ 64 - 1, 0, 2 ^ 64 - 1, []⟩

/-- A new link. -/
def demo : Net := ⟨demoDev 1 .central, demoDev 2 .peripheral, 1, 2, [], []⟩

/-- Preferences that differ for the two directions. -/
example : (command (demoDev 1 .central) (.setDefaultPhy false true 2 1)).map (fun o => (o.status, o.dev.defTx, o.dev.defRx)) =
    some (0, 2, 7) := by decide +kernel

theorem demo_joined : Joined demo := ⟨rfl, rfl, rfl, rfl, nofun, nofun⟩

/-- A history in which both hosts set PHYs at the same time: both change, both hosts are told. -/
example : (nrun demo [.hostA (.setPhy 1 false false 2 2), .hostB (.setPhy 2 false false 4 1), .arriveB, .arriveA, .arriveA,
      .arriveB, .arriveB]).map (fun r => ((phys r.1.a 1, phys r.1.b 2), (eventsA r.2, eventsB r.2))) =
    some ((some (.m2, .m2), some (.m2, .m2)), ([.phyDone 1 .m1 .coded, .phyDone 1 .m2 .m2],
      [.phyDone 2 .coded .m1, .phyDone 2 .m2 .m2])) := by decide +kernel

/-- The hypotheses of `C75_choice_central` and `C75_choice_peripheral` hold of the new link. -/
example : (command demo.a (.setPhy demo.ha true false 0 2)).map (·.status) = some 0 ∧
    (command demo.b (.setPhy demo.hb true false 0 2)).map (·.status) = some 0 ∧
    demo.a.mask.testBit 61 = true ∧ demo.a.leMask.testBit 11 = true := by decide +kernel

/-- The count of events for Set PHY, with the masks as they are. -/
example : (nrun demo [.hostA (.setPhy 1 false false 1 1), .hostA (.setPhy 1 false false 2 1), .hostB (.setPhy 2 false false 4 0),
      .arriveB, .arriveB, .arriveA, .arriveA]).map
        (fun r => (r.2.countP (setA 1), phyEvents 1 (eventsA r.2), r.1.toA, waits 2 false r.2)) =
    some (2, 2, [], false) := by decide +kernel

/-- **C75, false in part.** The peripheral's host sends Set PHY twice; both are accepted and nothing is on its way any
more, but it is told of one update only. -/
theorem C75_each_violated : ∃ n xs n' l, Joined n ∧ nrun n xs = some (n', l) ∧ n'.toA = [] ∧ n'.toB = [] ∧
    n.b.mask.testBit 61 = true ∧ n.b.leMask.testBit 11 = true ∧ (∀ c ∈ cmdsB xs, hearsPhy c = true) ∧
    l.countP (setB n.hb) = 2 ∧ phyEvents n.hb (eventsB l) = 1 := by
  have h : (nrun demo [.hostB (.setPhy 2 false false 1 1), .hostB (.setPhy 2 false false 1 1), .arriveA, .arriveA, .arriveB,
      .arriveB]).map (fun r => (r.1.toA, r.1.toB, r.2.countP (setB 2), phyEvents 2 (eventsB r.2))) = some ([], [], 2, 1) := by
    decide +kernel
  rw [Option.map_eq_some_iff] at h
  obtain ⟨⟨n', l⟩, h1, h2⟩ := h
  simp only [Prod.mk.injEq] at h2
  exact ⟨demo, _, n', l, demo_joined, h1, h2.1, h2.2.1, by decide +kernel, by decide +kernel, by decide, h2.2.2⟩

/-- The central of the next theorem: a second connection, with handle 3. -/
def demo2 : Net := { demo with a := put (demoDev 1 .central) 3 (Conn.fresh .central) }

/-- **C75, false in part.** The central's host asks for 1M on the link, and for 2M on another connection before the
peripheral has answered: the link changes to 2M, which the host has not asked for on this connection. -/
theorem C75_other_connection_violated : ∃ n xs n' l, Joined n ∧ nrun n xs = some (n', l) ∧ n'.toA = [] ∧ n'.toB = [] ∧
    xs.filter (fun x => match x with
      | .hostA (.setPhy k _ _ _ _) => k = n.ha
      | .hostB _ => true
      | _ => false) = [.hostA (.setPhy n.ha false false 1 1)] ∧
    phys n'.a n.ha = some (.m2, .m2) ∧ phys n'.b n.hb = some (.m2, .m2) := by
  have h : (nrun demo2 [.hostA (.setPhy 1 false false 1 1), .hostA (.setPhy 3 false false 2 2), .arriveB, .arriveA,
      .arriveB]).map (fun r => (r.1.toA, r.1.toB, phys r.1.a 1, phys r.1.b 2)) =
      some ([], [], some (.m2, .m2), some (.m2, .m2)) := by
    decide +kernel
  rw [Option.map_eq_some_iff] at h
  obtain ⟨⟨n', l⟩, h1, h2⟩ := h
  simp only [Prod.mk.injEq] at h2
  exact ⟨demo2, _, n', l, ⟨rfl, rfl, rfl, rfl, nofun, nofun⟩, h1, h2.1, h2.2.1, by decide, h2.2.2⟩

end Verif.Link
