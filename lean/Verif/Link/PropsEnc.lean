import Verif.Link.EncLemmas
import Verif.Link.PropsPhy
/-!
# C74: encryption of an LE link -/
namespace Verif.Link

/-- **C74.** A host that hears Encryption Change knows whether its connection is encrypted, after any history. -/
theorem C74_known {n n' : Net} {xs : List NAct} {l : List Seen} (h : Joined n) (hr : nrun n xs = some (n', l)) :
    (n.a.mask.testBit 7 = true → (∀ c ∈ cmdsA xs, hearsChange c = true) →
      encrypted n'.a n.ha = some (believes n.ha false (eventsA l))) ∧
    (n.b.mask.testBit 7 = true → (∀ c ∈ cmdsB xs, hearsChange c = true) →
      encrypted n'.b n.hb = some (believes n.hb false (eventsB l))) := by
  constructor
  · intro hu
    have := nrun_track (P := fun m xs l => m.ha = n.ha ∧ ((∀ c ∈ cmdsA xs, hearsChange c = true) →
        m.a.mask.testBit 7 = true ∧ ∃ c, m.a.conns n.ha = some c ∧ c.encrypted = believes n.ha false (eventsA l)))
      (fun n0 x n1 s xs l hp hs => ?_) hr ⟨rfl, fun _ => ⟨hu, _, h.a, rfl⟩⟩
    · intro hc
      obtain ⟨-, c, h1, h2⟩ := this.2 hc
      simp [encrypted, h1, h2]
    · rcases nstep_split hs with ⟨rfl, e1, e2, e3, e4⟩ | ⟨m, o, q, hm, hq, rfl, e1, e2, e3, e4, -⟩ |
        ⟨m, o, q, hm, hq, rfl, e1, e2, e3, e4, -⟩
      · simpa [cmdsA_snoc, eventsA_snoc, e3, e1] using hp
      · refine ⟨hp.1, fun hc => ?_⟩
        simp only [cmdsA_snoc, e3, List.mem_append] at hc
        obtain ⟨hp1, c, hp2, hp3⟩ := hp.2 (fun c h => hc c (Or.inl h))
        rw [← hp.1] at hp2
        obtain ⟨c', h1, h2⟩ := belief_move hm hp2 hp1
        refine ⟨mask_move hm 7 (fun x hx => hc _ (Or.inr hx)) hp1, c', by rw [← hp.1]; exact h1, ?_⟩
        rw [eventsA_snoc, believes_append, ← hp3, ← hp.1, e1, h2]
      · simpa [cmdsA_snoc, eventsA_snoc, e4, e2] using hp
  · intro hu
    have := nrun_track (P := fun m xs l => m.hb = n.hb ∧ ((∀ c ∈ cmdsB xs, hearsChange c = true) →
        m.b.mask.testBit 7 = true ∧ ∃ c, m.b.conns n.hb = some c ∧ c.encrypted = believes n.hb false (eventsB l)))
      (fun n0 x n1 s xs l hp hs => ?_) hr ⟨rfl, fun _ => ⟨hu, _, h.b, rfl⟩⟩
    · intro hc
      obtain ⟨-, c, h1, h2⟩ := this.2 hc
      simp [encrypted, h1, h2]
    · rcases nstep_split hs with ⟨rfl, e1, e2, e3, e4⟩ | ⟨m, o, q, hm, hq, rfl, e1, e2, e3, e4, -⟩ |
        ⟨m, o, q, hm, hq, rfl, e1, e2, e3, e4, -⟩
      · simpa [cmdsB_snoc, eventsB_snoc, e4, e2] using hp
      · simpa [cmdsB_snoc, eventsB_snoc, e4, e2] using hp
      · refine ⟨hp.1, fun hc => ?_⟩
        simp only [cmdsB_snoc, e3, List.mem_append] at hc
        obtain ⟨hp1, c, hp2, hp3⟩ := hp.2 (fun c h => hc c (Or.inl h))
        rw [← hp.1] at hp2
        obtain ⟨c', h1, h2⟩ := belief_move hm hp2 hp1
        refine ⟨mask_move hm 7 (fun x hx => hc _ (Or.inr hx)) hp1, c', by rw [← hp.1]; exact h1, ?_⟩
        rw [eventsB_snoc, believes_append, ← hp3, ← hp.1, e1, h2]

/-! ## Both ends agree -/

/-- Where the procedure is: the talk of the hosts, the connections at A and B, the keys of A's tasks, the requests on
their way to B and the responses on their way to A. -/
inductive Phase : Talk → Conn → Conn → List Key → List Key → List (Nat × Key) → Prop
  | idle {ca cb : Conn} (h : ca.encrypted = cb.encrypted) : Phase ⟨none, false⟩ ca cb [] [] []
  | task {ca cb : Conn} (k : Key) (h : ca.encrypted = cb.encrypted) : Phase ⟨some k, false⟩ ca cb [k] [] []
  | sent {ca cb : Conn} (k : Key) (hk : ca.ltk = some k) (h : ca.encrypted = cb.encrypted) : Phase ⟨some k, false⟩ ca cb [] [k] []
  | asked {ca cb : Conn} (k : Key) (hk : ca.ltk = some k) (h : ca.encrypted = cb.encrypted) : Phase ⟨some k, true⟩ ca cb [] [] []
  | ok {ca cb : Conn} (k : Key) (hk : ca.ltk = some k) (h : cb.encrypted = true) : Phase ⟨some k, false⟩ ca cb [] [] [(0, k)]
  | refused {ca cb : Conn} (k : Key) (z : Key) (hk : ca.ltk = some k) (h : ca.encrypted = cb.encrypted) :
      Phase ⟨some k, false⟩ ca cb [] [] [(6, z)]

theorem Phase.congr {t : Talk} {ca cb ca' cb' : Conn} {a b : List Key} {c : List (Nat × Key)} (h : Phase t ca cb a b c)
    (h1 : ca'.encrypted = ca.encrypted) (h2 : ca'.ltk = ca.ltk) (h3 : cb'.encrypted = cb.encrypted) :
    Phase t ca' cb' a b c := by
  cases h with
  | idle h => exact .idle (by rw [h1, h3, h])
  | task k h => exact .task k (by rw [h1, h3, h])
  | sent k hk h => exact .sent k (by rw [h2, hk]) (by rw [h1, h3, h])
  | asked k hk h => exact .asked k (by rw [h2, hk]) (by rw [h1, h3, h])
  | ok k hk h => exact .ok k (by rw [h2, hk]) (by rw [h3, h])
  | refused k z hk h => exact .refused k z (by rw [h2, hk]) (by rw [h1, h3, h])

/-- The invariant of orderly histories. -/
def EncInv (t : Talk) (n : Net) : Prop := ∃ ca cb, n.a.conns n.ha = some ca ∧ n.b.conns n.hb = some cb ∧
  n.a.mask.testBit 7 = true ∧ n.a.mask.testBit 47 = true ∧ n.b.mask.testBit 61 = true ∧ answers n.toB = [] ∧
  encs n.toA = [] ∧ tasksOf n.b n.hb = [] ∧ Phase t ca cb (tasksOf n.a n.ha) (encs n.toB) (answers n.toA)

theorem tasksOf_none {d : Dev} {h : Nat} (ht : ∀ e ∈ d.tasks, e.handle ≠ h) : tasksOf d h = [] := by
  simp only [tasksOf, List.map_eq_nil_iff, List.filter_eq_nil_iff, decide_eq_true_eq]
  exact ht

theorem Joined.encInv {n : Net} (h : Joined n) (h1 : n.a.mask.testBit 7 = true) (h2 : n.a.mask.testBit 47 = true)
    (h3 : n.b.mask.testBit 61 = true) : EncInv ⟨none, false⟩ n := by
  refine ⟨_, _, h.a, h.b, h1, h2, h3, by rw [h.toB]; rfl, by rw [h.toA]; rfl, tasksOf_none h.tasksB, ?_⟩
  rw [tasksOf_none h.tasksA, h.toA, h.toB]
  exact .idle rfl

/-- The talk after a quiet step of A. -/
theorem after_quietA {t : Talk} {n : Net} {m : Move} {o : Out} {st : Nat} (hm : m.cares n.a n.ha = false)
    (he : encEnds n.ha o.ev = []) : t.after n ⟨m.asA n.ha, st, o.ev, []⟩ = t := by
  obtain ⟨key, asked⟩ := t
  cases m with
  | cmd c => cases c <;> simp_all [Talk.after, Move.asA, Move.cares, ltkAsks]
  | task => simp [Talk.after, Move.asA, he, ltkAsks]
  | rcv k p => by_cases hk : k = n.ha <;> simp [Talk.after, Move.asA, hk, he, ltkAsks]

/-- The talk after a quiet step of B. -/
theorem after_quietB {t : Talk} {n : Net} {m : Move} {o : Out} {st : Nat} (hm : m.cares n.b n.hb = false)
    (he : ltkAsks n.hb o.ev = 0) : t.after n ⟨m.asB n.hb, st, [], o.ev⟩ = t := by
  obtain ⟨key, asked⟩ := t
  cases m with
  | cmd c => cases c <;> simp_all [Talk.after, Move.asB, Move.cares, encEnds]
  | task => simp [Talk.after, Move.asB, he, encEnds]
  | rcv k p => by_cases hk : k = n.hb <;> simp [Talk.after, Move.asB, hk, he, encEnds]

theorem orderlyA_mask {t : Talk} {n : Net} {m : Move} (ho : orderly t n (m.asA n.ha) = true) (x : Nat)
    (hx : Cmd.setMask x ∈ m.cmds) : x.testBit 7 = true ∧ x.testBit 47 = true := by
  cases m with
  | cmd c => cases c <;> simp_all [Move.cmds, orderly, Move.asA]
  | _ => simp [Move.cmds] at hx

theorem orderlyB_mask {t : Talk} {n : Net} {m : Move} (ho : orderly t n (m.asB n.hb) = true) (x : Nat)
    (hx : Cmd.setMask x ∈ m.cmds) : x.testBit 61 = true := by
  cases m with
  | cmd c => cases c <;> simp_all [Move.cmds, orderly, Move.asB]
  | _ => simp [Move.cmds] at hx

theorem encInv_step {t : Talk} {n n1 : Net} {x : NAct} {s : Seen} (h : EncInv t n) (ho : orderly t n x = true)
    (hs : nstep n x = some (n1, s)) : EncInv (t.after n s) n1 := by
  obtain ⟨ca, cb, ha, hb, m7, m47, m61, hans, henc, htb, hph⟩ := h
  rcases nstep_cases hs with ⟨h, hx⟩ | ⟨m, o, q, hm, hx, hq, h⟩ | ⟨m, o, q, hm, hx, hq, h⟩
  · cases h
    have : t.after n ⟨x, 0, [], []⟩ = t := by
      rcases hx with ⟨rfl, _⟩ | ⟨rfl, _⟩ | ⟨p, rfl⟩ | ⟨p, rfl⟩ <;> simp [Talk.after, encEnds, ltkAsks]
    rw [this]
    exact ⟨ca, cb, ha, hb, m7, m47, m61, hans, henc, htb, hph⟩
  · cases h
    subst hx
    have k7 := mask_move hm 7 (fun x hx => (orderlyA_mask ho x hx).1) m7
    have k47 := mask_move hm 47 (fun x hx => (orderlyA_mask ho x hx).2) m47
    rw [hq, encs_append, List.append_eq_nil_iff] at henc
    rw [hq, answers_append] at hph
    cases hcare : m.cares n.a n.ha
    · obtain ⟨c', qt⟩ := quiet hm ha hcare
      rw [after_quietA hcare qt.ends]
      refine ⟨c', cb, qt.conn, hb, k7, k47, m61, ?_, henc.2, htb, ?_⟩
      · simp only [answers_append, hans, qt.answers]; rfl
      · rw [qt.cameA] at hph
        simp only [encs_append, qt.encs, qt.tasks, List.append_nil]
        exact hph.congr qt.enc qt.ltk rfl
    · have u8 : unmasked n.a 8 = true := by simp [unmasked, m7]
      have u48 : unmasked n.a 48 = true := by simp [unmasked, m47]
      cases effect hm ha (cares_handle hcare) with
      | enable r e k =>
        simp only [orderly, Move.asA, ne_eq, not_true_eq_false, decide_false, Bool.false_or, Option.isNone_iff_eq_none] at ho
        simp only [putA, Move.asA, over_nil, List.append_nil]
        obtain ⟨key, asked⟩ := t
        simp only at ho
        subst ho
        have : (Talk.after ⟨none, asked⟩ n ⟨.hostA (.enable n.ha r e k), 0, [], []⟩) = ⟨some k, asked⟩ := by
          simp [Talk.after, ltkAsks]
        rw [this]
        refine ⟨ca, cb, ha, hb, m7, m47, m61, hans, henc.2, htb, ?_⟩
        simp only [Move.arrived, answers, List.filterMap_nil, List.nil_append] at hph
        have ht : tasksOf { n.a with tasks := n.a.tasks ++ [⟨n.ha, r, e, k⟩] } n.ha = tasksOf n.a n.ha ++ [k] := by
          simp [tasksOf]
        rw [ht]
        generalize e1 : tasksOf n.a n.ha = T at hph ⊢
        generalize e2 : encs n.toB = E at hph ⊢
        simp only [answers]
        generalize e3 : List.filterMap _ q = G at hph ⊢
        cases hph with
        | idle h => exact .task k h
      | task r e k l ht =>
        simp only [putA, Move.asA]
        have : (t.after n ⟨.taskA, 0, [], []⟩) = t := by simp [Talk.after, ltkAsks, encEnds]
        rw [this]
        refine ⟨_, cb, put_same _ _ _, hb, m7, m47, m61, ?_, henc.2, htb, ?_⟩
        · rw [over_one, answers_append, hans]; rfl
        · simp only [Move.arrived, answers, List.filterMap_nil, List.nil_append] at hph
          have h1 : tasksOf n.a n.ha = k :: tasksOf { put n.a n.ha { ca with ltk := some k } with tasks := l } n.ha := by
            simp [tasksOf, ht]
          rw [h1] at hph
          rw [over_one, encs_append]
          generalize e1 : tasksOf { put n.a n.ha { ca with ltk := some k } with tasks := l } n.ha = T at hph ⊢
          generalize e2 : encs n.toB = E at hph ⊢
          simp only [answers]
          generalize e3 : List.filterMap _ q = G at hph ⊢
          cases hph with
          | task k h => exact .sent k rfl h
      | refresh k he => simp [orderly, Move.asA] at ho
      | reply k he => simp [orderly, Move.asA] at ho
      | negative => simp [orderly, Move.asA] at ho
      | enc r e k => rw [arrived_rcv] at henc; simp [encs] at henc
      | rspOn st k he =>
        rw [arrived_rcv] at hph
        simp only [putA, over_nil, List.append_nil, tell, u48, if_true]
        have : (t.after n ⟨(Move.rcv n.ha (.encRsp st k)).asA n.ha, 0, [.keyRefresh (rspStatus ca st k) n.ha], []⟩) = ⟨none, t.asked⟩ := by
          simp [Talk.after, Move.asA, encEnds, encEnd, ltkAsks]
        rw [this]
        refine ⟨ca, cb, ha, hb, m7, m47, m61, hans, henc.2, htb, ?_⟩
        have e0 : answers [Pkt.encRsp st k] ++ answers q = (st, k) :: answers q := rfl
        rw [e0] at hph
        generalize e1 : tasksOf n.a n.ha = T at hph ⊢
        generalize e2 : encs n.toB = E at hph ⊢
        generalize e3 : answers q = G at hph ⊢
        cases hph with
        | ok k hk h => exact .idle (by rw [he, h])
        | refused k z hk h => exact .idle h
      | rspOk st k he hst =>
        rw [arrived_rcv] at hph
        simp only [putA, over_nil, List.append_nil, tell, u8, if_true]
        have : (t.after n ⟨(Move.rcv n.ha (.encRsp st k)).asA n.ha, 0, [.encChange 0 n.ha true], []⟩) = ⟨none, t.asked⟩ := by
          simp [Talk.after, Move.asA, encEnds, encEnd, ltkAsks]
        rw [this]
        refine ⟨_, cb, put_same _ _ _, hb, m7, m47, m61, hans, henc.2, htb, ?_⟩
        have e0 : answers [Pkt.encRsp st k] ++ answers q = (st, k) :: answers q := rfl
        rw [e0] at hph
        have e1 : tasksOf (put n.a n.ha { ca with encrypted := true }) n.ha = tasksOf n.a n.ha := rfl
        rw [e1]
        generalize e1 : tasksOf n.a n.ha = T at hph ⊢
        generalize e2 : encs n.toB = E at hph ⊢
        generalize e3 : answers q = G at hph ⊢
        cases hph with
        | ok k hk h => exact .idle h.symm
        | refused k z hk h => simp [rspStatus] at hst
      | rspBad st k he hst =>
        rw [arrived_rcv] at hph
        simp only [putA, over_nil, List.append_nil, tell, u8, if_true]
        have : (t.after n ⟨(Move.rcv n.ha (.encRsp st k)).asA n.ha, 0, [.encChange (rspStatus ca st k) n.ha false], []⟩) = ⟨none, t.asked⟩ := by
          simp [Talk.after, Move.asA, encEnds, encEnd, ltkAsks]
        rw [this]
        refine ⟨ca, cb, ha, hb, m7, m47, m61, hans, henc.2, htb, ?_⟩
        have e0 : answers [Pkt.encRsp st k] ++ answers q = (st, k) :: answers q := rfl
        rw [e0] at hph
        generalize e1 : tasksOf n.a n.ha = T at hph ⊢
        generalize e2 : encs n.toB = E at hph ⊢
        generalize e3 : answers q = G at hph ⊢
        cases hph with
        | ok k hk h => simp [rspStatus, hk] at hst
        | refused k z hk h => exact .idle h
      | _ => simp [Move.cares] at hcare
  · cases h
    subst hx
    have k61 := mask_move hm 61 (fun x hx => orderlyB_mask ho x hx) m61
    rw [hq, answers_append, List.append_eq_nil_iff] at hans
    rw [hq, encs_append] at hph
    cases hcare : m.cares n.b n.hb
    · obtain ⟨c', qt⟩ := quiet hm hb hcare
      rw [after_quietB hcare qt.asks]
      refine ⟨ca, c', ha, qt.conn, m7, m47, k61, hans.2, ?_, by simp only [qt.tasks, htb], ?_⟩
      · simp only [encs_append, henc, qt.encs]; rfl
      · rw [qt.came] at hph
        simp only [answers_append, qt.answers, List.append_nil]
        exact hph.congr rfl rfl qt.enc
    · have u62 : unmasked n.b 0x3e = true := by simp [unmasked, m61]
      cases effect hm hb (cares_handle hcare) with
      | enable r e k => simp [orderly, Move.asB] at ho
      | task r e k l ht => simp [tasksOf, ht] at htb
      | refresh k he =>
        simp only [orderly, Move.asB, ne_eq, not_true_eq_false, decide_false, Bool.false_or, Bool.and_eq_true,
          decide_eq_true_eq] at ho
        obtain ⟨key, asked⟩ := t
        obtain ⟨ho1, ho2⟩ := ho
        simp only at ho1 ho2
        subst ho1 ho2
        simp only [putB, Move.asB]
        have : (Talk.after ⟨some k, true⟩ n ⟨.hostB (.reply n.hb k), 0, [], tell (unmasked n.b 48) (.keyRefresh 0 n.hb)⟩) = ⟨some k, false⟩ := by
          simp [Talk.after, encEnds]
        rw [this]
        refine ⟨ca, cb, ha, hb, m7, m47, m61, hans.2, ?_, htb, ?_⟩
        · rw [over_one, encs_append, henc]; rfl
        · rw [over_one, answers_append]
          simp only [Move.arrived, encs, List.filterMap_nil, List.nil_append] at hph ⊢
          generalize e1 : tasksOf n.a n.ha = T at hph ⊢
          generalize e2 : List.filterMap _ q = E at hph ⊢
          generalize e3 : answers n.toA = G at hph ⊢
          cases hph with
          | asked k hk h => exact .ok k hk he
      | reply k he =>
        simp only [orderly, Move.asB, ne_eq, not_true_eq_false, decide_false, Bool.false_or, Bool.and_eq_true,
          decide_eq_true_eq] at ho
        obtain ⟨key, asked⟩ := t
        obtain ⟨ho1, ho2⟩ := ho
        simp only at ho1 ho2
        subst ho1 ho2
        simp only [putB, Move.asB]
        have : ∀ ev, (Talk.after ⟨some k, true⟩ n ⟨.hostB (.reply n.hb k), 0, [], ev⟩) = ⟨some k, false⟩ := by
          intro ev; simp [Talk.after, encEnds]
        rw [this]
        refine ⟨ca, _, ha, put_same _ _ _, m7, m47, m61, hans.2, ?_, htb, ?_⟩
        · rw [over_one, encs_append, henc]; rfl
        · rw [over_one, answers_append]
          simp only [Move.arrived, encs, List.filterMap_nil, List.nil_append] at hph ⊢
          generalize e1 : tasksOf n.a n.ha = T at hph ⊢
          generalize e2 : List.filterMap _ q = E at hph ⊢
          generalize e3 : answers n.toA = G at hph ⊢
          cases hph with
          | asked k hk h => exact .ok k hk rfl
      | negative =>
        simp only [orderly, Move.asB, ne_eq, not_true_eq_false, decide_false, Bool.false_or] at ho
        obtain ⟨key, asked⟩ := t
        simp only at ho
        subst ho
        simp only [putB, Move.asB]
        have : (Talk.after ⟨key, true⟩ n ⟨.hostB (.negative n.hb), 0, [], []⟩) = ⟨key, false⟩ := by
          simp [Talk.after, encEnds]
        rw [this]
        refine ⟨ca, cb, ha, hb, m7, m47, m61, hans.2, ?_, htb, ?_⟩
        · rw [over_one, encs_append, henc]; rfl
        · rw [over_one, answers_append]
          simp only [Move.arrived, encs, List.filterMap_nil, List.nil_append] at hph ⊢
          generalize e1 : tasksOf n.a n.ha = T at hph ⊢
          generalize e2 : List.filterMap _ q = E at hph ⊢
          generalize e3 : answers n.toA = G at hph ⊢
          cases hph with
          | asked k hk h => exact .refused k _ hk h
      | enc r e k =>
        rw [arrived_rcv] at hph
        simp only [putB, over_nil, List.append_nil, tell, u62, if_true]
        have : (t.after n ⟨(Move.rcv n.hb (.enc r e k)).asB n.hb, 0, [], [.ltkRequest n.hb r e]⟩) = ⟨t.key, true⟩ := by
          simp [Talk.after, Move.asB, encEnds, ltkAsks]
        rw [this]
        refine ⟨ca, _, ha, put_same _ _ _, m7, m47, m61, hans.2, henc, htb, ?_⟩
        have e0 : encs [Pkt.enc r e k] ++ encs q = k :: encs q := rfl
        rw [e0] at hph
        generalize e1 : tasksOf n.a n.ha = T at hph ⊢
        generalize e2 : encs q = E at hph ⊢
        generalize e3 : answers n.toA = G at hph ⊢
        cases hph with
        | sent k hk h => exact .asked k hk h
      | rspOn st k he => rw [arrived_rcv] at hans; simp [answers] at hans
      | rspOk st k he hst => rw [arrived_rcv] at hans; simp [answers] at hans
      | rspBad st k he hst => rw [arrived_rcv] at hans; simp [answers] at hans
      | _ => simp [Move.cares] at hcare

theorem encInv_run {xs : List NAct} {t : Talk} {n n' : Net} {l : List Seen} (h : nrun n xs = some (n', l))
    (hi : EncInv t n) (ho : orderlyRun t n xs = true) : EncInv (talk t n xs) n' := by
  induction xs generalizing n n' l t with
  | nil => cases h; exact hi
  | cons x xs ih =>
    obtain ⟨n1, s, l1, hs, hr, rfl⟩ := nrun_cons h
    simp only [orderlyRun, hs, Option.all_some, Bool.and_eq_true] at ho
    simp only [talk, hs]
    exact ih hr (encInv_step hi ho.1 hs) ho.2

/-- **C74, in part.** Let the central's host enable encryption, one procedure at a time, and let the peripheral's host
answer when it is asked, with the same key or negatively; let both hear of it. Then whenever no procedure is open for the
central's host, both ends are encrypted or neither is. -/
theorem C74_agree_partial {n n' : Net} {xs : List NAct} {l : List Seen} (h : Joined n)
    (hu : n.a.mask.testBit 7 = true ∧ n.a.mask.testBit 47 = true ∧ n.b.mask.testBit 61 = true)
    (ho : orderlyRun ⟨none, false⟩ n xs = true) (hr : nrun n xs = some (n', l))
    (hdone : (talk ⟨none, false⟩ n xs).key = none) :
    ∃ on, encrypted n'.a n.ha = some on ∧ encrypted n'.b n.hb = some on := by
  obtain ⟨ca, cb, ha, hb, -, -, -, -, -, -, hph⟩ := encInv_run hr (h.encInv hu.1 hu.2.1 hu.2.2) ho
  obtain ⟨e1, e2⟩ := nrun_handles hr
  rw [e1] at ha
  rw [e2] at hb
  generalize talk ⟨none, false⟩ n xs = t at hph hdone
  refine ⟨ca.encrypted, by simp [encrypted, ha], ?_⟩
  simp only [encrypted, hb, Option.map_some]
  generalize tasksOf n'.a n'.ha = T at hph
  generalize encs n'.toB = E at hph
  generalize answers n'.toA = G at hph
  cases hph with
  | idle h => rw [h]
  | _ => cases hdone

/-! ## Each request is answered once -/

theorem enabled_append (h : Nat) (a b : List Cmd) : enabled h (a ++ b) = enabled h a ++ enabled h b := by simp [enabled]
theorem replied_append (h : Nat) (a b : List Cmd) : replied h (a ++ b) = replied h a ++ replied h b := by simp [replied]
theorem refused_append (h : Nat) (a b : List Cmd) : refused h (a ++ b) = refused h a + refused h b := by simp [refused]

theorem cmds_quiet {d : Dev} {m : Move} {h : Nat} (hm : m.cares d h = false) :
    enabled h m.cmds = [] ∧ replied h m.cmds = [] ∧ refused h m.cmds = 0 := by
  cases m with
  | cmd c => cases c <;> simp_all [Move.cares, Move.cmds, enabled, replied, refused]
  | _ => exact ⟨rfl, rfl, rfl⟩

/-- What a step does to the number of requests. -/
theorem enable_count {d : Dev} {m : Move} {o : Out} (hr : m.run d = some o) {h : Nat} {c : Conn} (hc : d.conns h = some c) :
    (enabled h m.cmds).length + (tasksOf d h).length = (encs (over h o.out)).length + (tasksOf o.dev h).length ∧
    (d.mask.testBit 61 = true → ltkAsks h o.ev = (encs (m.arrived h)).length) ∧
    ∃ c', o.dev.conns h = some c' := by
  cases hm : m.cares d h
  · obtain ⟨c', q⟩ := quiet hr hc hm
    obtain ⟨h1, -, -⟩ := cmds_quiet hm
    refine ⟨?_, fun _ => ?_, c', q.conn⟩
    · rw [h1, q.encs, q.tasks]
    · rw [q.asks, q.came]; rfl
  cases effect hr hc (cares_handle hm) with
  | enable r e k => exact ⟨by simp [enabled, Move.cmds, over_nil, encs, tasksOf]; omega, fun _ => rfl, c, hc⟩
  | task r e k l ht => exact ⟨by simp [enabled, Move.cmds, over_one, encs, tasksOf, ht]; omega, fun _ => rfl, _, put_same _ _ _⟩
  | refresh k he =>
    refine ⟨by simp [enabled, Move.cmds, over_one, encs], fun _ => ?_, c, hc⟩
    simp only [tell]; split <;> rfl
  | reply k he =>
    refine ⟨by simp [enabled, Move.cmds, over_one, encs, tasksOf, put], fun _ => ?_, _, put_same _ _ _⟩
    simp only [tell]; (repeat' split) <;> rfl
  | negative => exact ⟨by simp [enabled, Move.cmds, over_one, encs], fun _ => rfl, c, hc⟩
  | enc r e k =>
    refine ⟨rfl, fun hu => ?_, _, put_same _ _ _⟩
    rw [arrived_rcv]
    simp [tell, unmasked, hu, ltkAsks, encs]
  | rspOn st k he =>
    refine ⟨rfl, fun _ => ?_, c, hc⟩
    rw [arrived_rcv]
    simp only [tell]; split <;> rfl
  | rspOk st k he hs =>
    refine ⟨rfl, fun _ => ?_, _, put_same _ _ _⟩
    rw [arrived_rcv]
    simp only [tell]; split <;> rfl
  | rspBad st k he hs =>
    refine ⟨rfl, fun _ => ?_, c, hc⟩
    rw [arrived_rcv]
    simp only [tell]; split <;> rfl
  | _ => simp [Move.cares] at hm

/-- **C74.** Each Enable Encryption of the central's host is put to the peripheral's host exactly once: the requests it
has been sent, those on their way and those not yet started make up all that were accepted. -/
theorem C74_asked_once {n n' : Net} {xs : List NAct} {l : List Seen} (h : Joined n) (hr : nrun n xs = some (n', l))
    (hu : n.b.mask.testBit 61 = true) (hc : ∀ c ∈ cmdsB xs, hearsLe c = true) :
    (enabled n.ha (cmdsA xs)).length = ltkAsks n.hb (eventsB l) + (encs n'.toB).length + (tasksOf n'.a n.ha).length := by
  have := nrun_track (P := fun m xs l => m.ha = n.ha ∧ m.hb = n.hb ∧ (∃ ca, m.a.conns n.ha = some ca) ∧
      (∃ cb, m.b.conns n.hb = some cb) ∧ ((∀ c ∈ cmdsB xs, hearsLe c = true) → m.b.mask.testBit 61 = true ∧
      (enabled n.ha (cmdsA xs)).length = ltkAsks n.hb (eventsB l) + (encs m.toB).length + (tasksOf m.a n.ha).length))
    (fun n0 x n1 s xs l hp hs => ?_) hr ⟨rfl, rfl, ⟨_, h.a⟩, ⟨_, h.b⟩, fun _ => ⟨hu, by
      rw [tasksOf_none h.tasksA, h.toB]; rfl⟩⟩
  · exact (this.2.2.2.2 hc).2
  · obtain ⟨e1, e2, ⟨ca, ha⟩, ⟨cb, hb⟩, hp⟩ := hp
    rcases nstep_split hs with ⟨rfl, v1, v2, v3, v4⟩ | ⟨m, o, q, hm, hq, rfl, v1, v2, v3, v4, -⟩ |
      ⟨m, o, q, hm, hq, rfl, v1, v2, v3, v4, -⟩
    · refine ⟨e1, e2, ⟨ca, ha⟩, ⟨cb, hb⟩, ?_⟩
      rw [cmdsA_snoc, cmdsB_snoc, eventsB_snoc, v2, v3, v4]
      simpa using hp
    · rw [e1] at hq
      obtain ⟨g1, -, g3⟩ := enable_count hm ha
      refine ⟨e1, e2, g3, ⟨cb, hb⟩, fun hcs => ?_⟩
      rw [cmdsB_snoc, v4, List.append_nil] at hcs
      obtain ⟨p1, p2⟩ := hp hcs
      refine ⟨p1, ?_⟩
      rw [cmdsA_snoc, enabled_append, eventsB_snoc, v3, v2]
      simp only [List.append_nil, List.length_append, encs_append, e1]
      omega
    · rw [e2] at hq
      obtain ⟨-, g2, g3⟩ := enable_count hm hb
      refine ⟨e1, e2, ⟨ca, ha⟩, g3, fun hcs => ?_⟩
      rw [cmdsB_snoc, v3] at hcs
      simp only [List.mem_append] at hcs
      obtain ⟨p1, p2⟩ := hp (fun c h => hcs c (Or.inl h))
      refine ⟨mask_move hm 61 (fun x hx => hcs _ (Or.inr hx)) p1, ?_⟩
      rw [cmdsA_snoc, enabled_append, eventsB_snoc, v4, v1, ltkAsks_append, g2 p1]
      rw [hq, encs_append, List.length_append] at p2
      simp only [enabled, List.filterMap_nil, List.append_nil] at p2 ⊢
      omega

/-- What a step does to the number of ends. -/
theorem end_count {d : Dev} {m : Move} {o : Out} (hr : m.run d = some o) {h : Nat} {c : Conn} (hc : d.conns h = some c) :
    (replied h m.cmds).length + refused h m.cmds = (answers (over h o.out)).length ∧
    (d.mask.testBit 7 = true → d.mask.testBit 47 = true →
      (encEnds h o.ev).length = (answers (m.arrived h)).length + (replied h m.cmds).length) := by
  cases hm : m.cares d h
  · obtain ⟨c', q⟩ := quiet hr hc hm
    obtain ⟨-, h1, h2⟩ := cmds_quiet hm
    refine ⟨?_, fun _ _ => ?_⟩
    · rw [h1, h2, q.answers]; rfl
    · rw [q.ends, q.cameA, h1]; rfl
  cases effect hr hc (cares_handle hm) with
  | enable r e k => exact ⟨rfl, fun _ _ => rfl⟩
  | task r e k l ht => exact ⟨by rw [over_one]; rfl, fun _ _ => rfl⟩
  | refresh k he =>
    refine ⟨by rw [over_one]; simp [replied, refused, Move.cmds, answers], fun h1 h2 => ?_⟩
    simp [tell, unmasked, h2, encEnds, encEnd, replied, Move.cmds, Move.arrived, answers]
  | reply k he =>
    refine ⟨by rw [over_one]; simp [replied, refused, Move.cmds, answers], fun h1 h2 => ?_⟩
    have u8 : unmasked d 8 = true := by simp [unmasked, h1]
    simp only [tell, u8, if_true]
    split <;> simp [encEnds, encEnd, replied, Move.cmds, Move.arrived, answers]
  | negative =>
    refine ⟨by rw [over_one]; simp [replied, refused, Move.cmds, answers], fun h1 h2 => rfl⟩
  | enc r e k =>
    refine ⟨rfl, fun _ _ => ?_⟩
    rw [arrived_rcv]
    simp only [tell]; split <;> rfl
  | rspOn st k he =>
    refine ⟨rfl, fun h1 h2 => ?_⟩
    rw [arrived_rcv]
    simp [tell, unmasked, h2, encEnds, encEnd, replied, Move.cmds, answers]
  | rspOk st k he hs =>
    refine ⟨rfl, fun h1 h2 => ?_⟩
    rw [arrived_rcv]
    simp [tell, unmasked, h1, encEnds, encEnd, replied, Move.cmds, answers]
  | rspBad st k he hs =>
    refine ⟨rfl, fun h1 h2 => ?_⟩
    rw [arrived_rcv]
    simp [tell, unmasked, h1, encEnds, encEnd, replied, Move.cmds, answers]
  | _ => simp [Move.cares] at hm

/-- **C74.** Each answer of the peripheral's host is told to the central's host exactly once, as the end of a procedure:
the ends it has been told and the responses on their way make up all replies, positive and negative. (A reply of the
central's own host, which nobody has asked for, counts too: its controller reports it.) -/
theorem C74_told_once {n n' : Net} {xs : List NAct} {l : List Seen} (h : Joined n) (hr : nrun n xs = some (n', l))
    (hu : n.a.mask.testBit 7 = true ∧ n.a.mask.testBit 47 = true) (hc : ∀ c ∈ cmdsA xs, hearsEnd c = true) :
    (replied n.hb (cmdsB xs)).length + refused n.hb (cmdsB xs) + (replied n.ha (cmdsA xs)).length =
      (encEnds n.ha (eventsA l)).length + (answers n'.toA).length := by
  have := nrun_track (P := fun m xs l => m.ha = n.ha ∧ m.hb = n.hb ∧ (∃ ca, m.a.conns n.ha = some ca) ∧
      (∃ cb, m.b.conns n.hb = some cb) ∧ ((∀ c ∈ cmdsA xs, hearsEnd c = true) →
      (m.a.mask.testBit 7 = true ∧ m.a.mask.testBit 47 = true) ∧
      (replied n.hb (cmdsB xs)).length + refused n.hb (cmdsB xs) + (replied n.ha (cmdsA xs)).length =
        (encEnds n.ha (eventsA l)).length + (answers m.toA).length))
    (fun n0 x n1 s xs l hp hs => ?_) hr ⟨rfl, rfl, ⟨_, h.a⟩, ⟨_, h.b⟩, fun _ => ⟨hu, by rw [h.toA]; rfl⟩⟩
  · exact (this.2.2.2.2 hc).2
  · obtain ⟨e1, e2, ⟨ca, ha⟩, ⟨cb, hb⟩, hp⟩ := hp
    rcases nstep_split hs with ⟨rfl, v1, v2, v3, v4⟩ | ⟨m, o, q, hm, hq, rfl, v1, v2, v3, v4, -⟩ |
      ⟨m, o, q, hm, hq, rfl, v1, v2, v3, v4, -⟩
    · refine ⟨e1, e2, ⟨ca, ha⟩, ⟨cb, hb⟩, ?_⟩
      rw [cmdsA_snoc, cmdsB_snoc, eventsA_snoc, v1, v3, v4]
      simpa using hp
    · rw [e1] at hq
      obtain ⟨-, -, g3⟩ := enable_count hm ha
      obtain ⟨-, g2⟩ := end_count hm ha
      refine ⟨e1, e2, g3, ⟨cb, hb⟩, fun hcs => ?_⟩
      rw [cmdsA_snoc, v3] at hcs
      simp only [List.mem_append] at hcs
      obtain ⟨p1, p2⟩ := hp (fun c h => hcs c (Or.inl h))
      have hmask : ∀ x, Cmd.setMask x ∈ m.cmds → x.testBit 7 = true ∧ x.testBit 47 = true := by
        intro x hx
        simpa [hearsEnd] using hcs _ (Or.inr hx)
      refine ⟨⟨mask_move hm 7 (fun x hx => (hmask x hx).1) p1.1, mask_move hm 47 (fun x hx => (hmask x hx).2) p1.2⟩, ?_⟩
      rw [cmdsA_snoc, cmdsB_snoc, replied_append, replied_append, refused_append, eventsA_snoc, v3, v4, v1, encEnds_append]
      rw [hq, answers_append] at p2
      simp only [List.length_append, g2 p1.1 p1.2] at p2 ⊢
      simp only [replied, refused, List.filterMap_nil, List.countP_nil, List.length_nil] at p2 ⊢
      omega
    · rw [e2] at hq
      obtain ⟨-, -, g3⟩ := enable_count hm hb
      obtain ⟨g1, -⟩ := end_count hm hb
      refine ⟨e1, e2, ⟨ca, ha⟩, g3, fun hcs => ?_⟩
      rw [cmdsA_snoc, v4, List.append_nil] at hcs
      obtain ⟨p1, p2⟩ := hp hcs
      refine ⟨p1, ?_⟩
      rw [cmdsA_snoc, cmdsB_snoc, replied_append, replied_append, refused_append, eventsA_snoc, v3, v4, v2]
      simp only [answers_append, List.length_append, List.append_nil, e2, ← g1]
      simp only [replied, List.filterMap_nil, List.length_nil] at p2 ⊢
      omega

/-! ## The key -/

/-- What a step does to the keys. -/
theorem key_move {d : Dev} {m : Move} {o : Out} (hr : m.run d = some o) {h : Nat} {c : Conn} (hc : d.conns h = some c) :
    ∃ c', o.dev.conns h = some c' ∧
      (∀ k, c'.ltk = some k → c.ltk = some k ∨ k ∈ tasksOf d h ∨ k ∈ encs (m.arrived h)) ∧
      (c'.ltk = none → c.ltk = none ∧ encs (over h o.out) = []) ∧
      (∀ k ∈ tasksOf o.dev h, k ∈ tasksOf d h ∨ k ∈ enabled h m.cmds) ∧
      (∀ k ∈ encs (over h o.out), k ∈ tasksOf d h) ∧
      (∀ k, (0, k) ∈ answers (over h o.out) → k ∈ replied h m.cmds) ∧
      (encs (m.arrived h) = [] → ltkAsks h o.ev = 0) := by
  cases hm : m.cares d h
  · obtain ⟨c', q⟩ := quiet hr hc hm
    refine ⟨c', q.conn, fun k hk => Or.inl (q.ltk ▸ hk), fun hn => ⟨q.ltk ▸ hn, q.encs⟩, fun k hk => Or.inl (q.tasks ▸ hk), ?_, ?_,
      fun _ => q.asks⟩
    · rw [q.encs]; nofun
    · rw [q.answers]; nofun
  cases effect hr hc (cares_handle hm) with
  | enable r e k =>
    refine ⟨c, hc, fun k hk => Or.inl hk, fun hn => ⟨hn, rfl⟩, ?_, nofun, nofun, fun _ => rfl⟩
    intro k' hk'
    have ht : tasksOf { d with tasks := d.tasks ++ [⟨h, r, e, k⟩] } h = tasksOf d h ++ [k] := by simp [tasksOf]
    simp only [ht, List.mem_append] at hk'
    exact hk'.imp id (fun h => by simpa [enabled, Move.cmds] using h)
  | task r e k l ht =>
    have h1 : tasksOf d h = k :: tasksOf { put d h { c with ltk := some k } with tasks := l } h := by simp [tasksOf, ht]
    refine ⟨_, put_same _ _ _, fun k' hk => Or.inr (Or.inl ?_), fun hn => (by cases hn), ?_, ?_, ?_, fun _ => rfl⟩
    · cases hk; rw [h1]; simp
    · intro k' hk'; rw [h1]; exact Or.inl (List.mem_cons_of_mem _ hk')
    · intro k' hk'; rw [h1]; simp only [over_one, encs, List.filterMap_cons, List.filterMap_nil, List.mem_singleton] at hk'; simp [hk']
    · simp [over_one, answers]
  | refresh k he =>
    refine ⟨c, hc, fun k hk => Or.inl hk, fun hn => ⟨hn, by rw [over_one]; rfl⟩, fun k hk => Or.inl hk, ?_, ?_, fun _ => ?_⟩
    · simp [over_one, encs]
    · simp [over_one, answers, replied, Move.cmds]
    · simp only [tell]; split <;> rfl
  | reply k he =>
    refine ⟨_, put_same _ _ _, fun k hk => Or.inl hk, fun hn => ⟨hn, by rw [over_one]; rfl⟩, fun k hk => Or.inl hk, ?_, ?_, fun _ => ?_⟩
    · simp [over_one, encs]
    · simp [over_one, answers, replied, Move.cmds]
    · simp only [tell]; (repeat' split) <;> rfl
  | negative =>
    refine ⟨c, hc, fun k hk => Or.inl hk, fun hn => ⟨hn, by rw [over_one]; rfl⟩, fun k hk => Or.inl hk, ?_, ?_, fun _ => rfl⟩
    · simp [over_one, encs]
    · simp [over_one, answers]
  | enc r e k =>
    refine ⟨_, put_same _ _ _, fun k' hk => Or.inr (Or.inr ?_), fun hn => (by cases hn), fun k hk => Or.inl hk, nofun, nofun, ?_⟩
    · cases hk; rw [arrived_rcv]; simp [encs]
    · rw [arrived_rcv]; intro h; simp [encs] at h
  | rspOn st k he =>
    refine ⟨c, hc, fun k hk => Or.inl hk, fun hn => ⟨hn, rfl⟩, fun k hk => Or.inl hk, nofun, nofun, fun _ => ?_⟩
    simp only [tell]; split <;> rfl
  | rspOk st k he hs =>
    refine ⟨_, put_same _ _ _, fun k hk => Or.inl hk, fun hn => ⟨hn, rfl⟩, fun k hk => Or.inl hk, nofun, nofun, fun _ => ?_⟩
    simp only [tell]; split <;> rfl
  | rspBad st k he hs =>
    refine ⟨c, hc, fun k hk => Or.inl hk, fun hn => ⟨hn, rfl⟩, fun k hk => Or.inl hk, nofun, nofun, fun _ => ?_⟩
    simp only [tell]; split <;> rfl
  | _ => simp [Move.cares] at hm

/-- The keys that are used come from the hosts. -/
structure KeyInv (n m : Net) (xs : List NAct) (l : List Seen) : Prop where
  ha : m.ha = n.ha
  hb : m.hb = n.hb
  a : ∃ c, m.a.conns n.ha = some c ∧
    (∀ k, c.ltk = some k → k ∈ enabled n.ha (cmdsA xs) ∨ k ∈ enabled n.hb (cmdsB xs)) ∧
    (c.ltk = none → encs m.toB = [] ∧ ltkAsks n.hb (eventsB l) = 0)
  b : ∃ c, m.b.conns n.hb = some c
  tasksA : ∀ k ∈ tasksOf m.a n.ha, k ∈ enabled n.ha (cmdsA xs)
  tasksB : ∀ k ∈ tasksOf m.b n.hb, k ∈ enabled n.hb (cmdsB xs)
  toA : ∀ k ∈ encs m.toA, k ∈ enabled n.hb (cmdsB xs)
  ans : ∀ k, (0, k) ∈ answers m.toA → k ∈ replied n.hb (cmdsB xs)

theorem keyInv_step {n n0 n1 : Net} {x : NAct} {s : Seen} {xs : List NAct} {l : List Seen} (h : KeyInv n n0 xs l)
    (hs : nstep n0 x = some (n1, s)) : KeyInv n n1 (xs ++ [x]) (l ++ [s]) := by
  obtain ⟨e1, e2, ⟨ca, ha, hk, hn⟩, ⟨cb, hb⟩, htA, htB, htoA, hans⟩ := h
  rcases nstep_split hs with ⟨rfl, v1, v2, v3, v4⟩ | ⟨m, o, q, hm, hq, rfl, v1, v2, v3, v4, -⟩ |
    ⟨m, o, q, hm, hq, rfl, v1, v2, v3, v4, -⟩
  · have ea : cmdsA (xs ++ [x]) = cmdsA xs := by rw [cmdsA_snoc, v3, List.append_nil]
    have eb : cmdsB (xs ++ [x]) = cmdsB xs := by rw [cmdsB_snoc, v4, List.append_nil]
    have ev : eventsB (l ++ [s]) = eventsB l := by rw [eventsB_snoc, v2, List.append_nil]
    refine ⟨e1, e2, ⟨ca, ha, ?_, ?_⟩, ⟨cb, hb⟩, ?_, ?_, ?_, ?_⟩
    all_goals simp only [ea, eb, ev]
    all_goals assumption
  · have ea : cmdsA (xs ++ [x]) = cmdsA xs ++ m.cmds := by rw [cmdsA_snoc, v3]
    have eb : cmdsB (xs ++ [x]) = cmdsB xs := by rw [cmdsB_snoc, v4, List.append_nil]
    have ev : eventsB (l ++ [s]) = eventsB l := by rw [eventsB_snoc, v2, List.append_nil]
    rw [e1] at hq
    obtain ⟨c', g1, g2, g3, g4, g5, g6, g7⟩ := key_move hm ha
    rw [hq, encs_append] at htoA
    rw [hq, answers_append] at hans
    refine ⟨e1, e2, ⟨c', g1, ?_, ?_⟩, ⟨cb, hb⟩, ?_, ?_, ?_, ?_⟩
    all_goals simp only [ea, eb, ev, enabled_append, List.mem_append]
    · intro k hck
      rcases g2 k hck with h1 | h1 | h1
      · exact (hk k h1).imp Or.inl id
      · exact Or.inl (Or.inl (htA k h1))
      · exact Or.inr (htoA k (List.mem_append_left _ h1))
    · intro hcn
      obtain ⟨h1, h2⟩ := g3 hcn
      obtain ⟨h3, h4⟩ := hn h1
      exact ⟨by rw [encs_append, h3, e1, h2]; rfl, h4⟩
    · intro k hk'
      exact (g4 k hk').imp (htA k) id
    · exact htB
    · exact fun k hk => htoA k (List.mem_append_right _ hk)
    · exact fun k hk => hans k (List.mem_append_right _ hk)
  · have ea : cmdsA (xs ++ [x]) = cmdsA xs := by rw [cmdsA_snoc, v4, List.append_nil]
    have eb : cmdsB (xs ++ [x]) = cmdsB xs ++ m.cmds := by rw [cmdsB_snoc, v3]
    have ev : eventsB (l ++ [s]) = eventsB l ++ o.ev := by rw [eventsB_snoc, v1]
    rw [e2] at hq
    obtain ⟨c', g1, g2, g3, g4, g5, g6, g7⟩ := key_move hm hb
    rw [hq, encs_append] at hn
    refine ⟨e1, e2, ⟨ca, ha, ?_, ?_⟩, ⟨c', g1⟩, ?_, ?_, ?_, ?_⟩
    all_goals simp only [ea, eb, ev, enabled_append, replied_append, List.mem_append]
    · intro k hck
      exact (hk k hck).imp id Or.inl
    · intro hcn
      obtain ⟨h1, h2⟩ := hn hcn
      rw [List.append_eq_nil_iff] at h1
      exact ⟨h1.2, by rw [ltkAsks_append, h2, g7 h1.1]⟩
    · exact htA
    · intro k hk'
      exact (g4 k hk').imp (htB k) id
    · intro k hk'
      rw [encs_append, List.mem_append] at hk'
      rw [e2] at hk'
      exact hk'.elim (fun h => Or.inl (htoA k h)) (fun h => Or.inl (htB k (g5 k h)))
    · intro k hk'
      rw [answers_append, List.mem_append] at hk'
      rw [e2] at hk'
      exact hk'.imp (hans k) (g6 k)

/-- **C74.** After any history: when a response tells the central's host that encryption has begun, or that the key has
been refreshed, then the peripheral's host has replied with a key, and that key is one with which encryption was enabled,
unless the peripheral's host had never been asked for a key (see `C74_unasked_violated`). -/
theorem C74_same_key {n n' n2 : Net} {xs : List NAct} {l : List Seen} {s : Seen} (h : Joined n)
    (hr : nrun n xs = some (n', l)) (hs : nstep n' .arriveA = some (n2, s)) (hok : 0 ∈ encEnds n.ha s.evA) :
    ∃ k ∈ replied n.hb (cmdsB xs), k ∈ enabled n.ha (cmdsA xs) ∨ k ∈ enabled n.hb (cmdsB xs) ∨
      ltkAsks n.hb (eventsB l) = 0 := by
  have hi := nrun_track (P := KeyInv n) (fun _ _ _ _ _ _ hp hs => keyInv_step hp hs) hr
    ⟨rfl, rfl, ⟨_, h.a, nofun, fun _ => ⟨by rw [h.toB]; rfl, rfl⟩⟩, ⟨_, h.b⟩, by rw [tasksOf_none h.tasksA]; nofun,
      by rw [tasksOf_none h.tasksB]; nofun, by rw [h.toA]; nofun, by rw [h.toA]; nofun⟩
  obtain ⟨e1, e2, ⟨ca, ha, hk, hn⟩, ⟨cb, hb⟩, htA, htB, htoA, hans⟩ := hi
  simp only [nstep] at hs
  split at hs
  · cases hs; simp [encEnds] at hok
  rename_i p q hq
  simp only [Option.map_eq_some_iff] at hs
  obtain ⟨o, ho, hs⟩ := hs
  cases hs
  simp only at hok
  rw [e1] at ho
  have key : ∃ st k, p = .encRsp st k ∧ rspStatus ca st k = 0 := by
    cases hm : (Move.rcv n.ha p).cares n'.a n.ha
    · obtain ⟨c', qt⟩ := quiet (m := .rcv n.ha p) ho ha hm
      rw [qt.ends] at hok
      cases hok
    · have he := effect (m := .rcv n.ha p) ho ha (cares_handle hm)
      cases he with
      | enc r e k =>
        simp only [tell] at hok
        split at hok <;> simp [encEnds, encEnd] at hok
      | rspOn st k he =>
        refine ⟨st, k, rfl, ?_⟩
        simp only [tell] at hok
        split at hok
        · simpa [encEnds, encEnd, eq_comm] using hok
        · simp [encEnds] at hok
      | rspOk st k he hst => exact ⟨st, k, rfl, hst⟩
      | rspBad st k he hst =>
        refine ⟨st, k, rfl, ?_⟩
        simp only [tell] at hok
        split at hok
        · simpa [encEnds, encEnd, eq_comm] using hok
        · simp [encEnds] at hok
      | _ => simp [Move.cares] at hm
  obtain ⟨st, k, rfl, hst⟩ := key
  have hst0 : st = 0 := by
    simp only [rspStatus] at hst
    split at hst <;> simp_all
  subst hst0
  refine ⟨k, hans k (by rw [hq]; simp [answers]), ?_⟩
  cases hl : ca.ltk with
  | none => exact Or.inr (Or.inr (hn hl).2)
  | some k' =>
    have : k = k' := by
      simp only [rspStatus, hl] at hst
      simp at hst
      exact hst
    subst this
    exact (hk k hl).imp id Or.inl

/-! ## A procedure -/

/-- **C74.** The central's host enables encryption and the peripheral's host replies: if with the same key, both ends are
encrypted and both hosts are told; if with another, the central's host is told that it failed. -/
theorem C74_procedure (n : Net) (ca cb : Conn) (ha : n.a.conns n.ha = some ca) (hb : n.b.conns n.hb = some cb)
    (hea : ca.encrypted = false) (heb : cb.encrypted = false)
    (hq : n.toA = [] ∧ n.toB = [] ∧ n.a.tasks = [])
    (hua : n.a.mask.testBit 7 = true) (hub : n.b.mask.testBit 7 = true ∧ n.b.mask.testBit 61 = true ∧ n.b.mask2.testBit 24 = false)
    (rand : List UInt8) (ediv : Nat) (k k' : Key) :
    ∃ n' l, nrun n [.hostA (.enable n.ha rand ediv k), .taskA, .arriveB, .hostB (.reply n.hb k'), .arriveA] = some (n', l) ∧
      eventsB l = [.ltkRequest n.hb rand ediv, .encChange 0 n.hb true] ∧ encrypted n'.b n.hb = some true ∧
      (if k' = k then eventsA l = [.encChange 0 n.ha true] ∧ encrypted n'.a n.ha = some true
        else eventsA l = [.encChange 0x05 n.ha false] ∧ encrypted n'.a n.ha = some false) := by
  obtain ⟨a, b, kA, kB, toA, toB⟩ := n
  simp only at *
  obtain ⟨rfl, rfl, ht⟩ := hq
  have u1 : unmasked b 0x3e = true := by simp [unmasked, hub]
  have u2 : ∀ c, unmasked (put b kB c) 0x59 = false := by intro c; simp [unmasked, put, hub]
  have u3 : ∀ c, unmasked (put b kB c) 0x08 = true := by intro c; simp [unmasked, put, hub]
  generalize hrun : nrun ⟨a, b, kA, kB, [], []⟩ _ = res
  simp only [nrun, nstep, command, enable, ha, Option.map_some, putA, putB, over_nil, List.append_nil, runTask, ht,
    List.nil_append, over_one, receive, hb, onEnc, reply, put_same, heb, Bool.false_eq_true, if_false, onEncRsp, hea, tell,
    u1, u2, u3, if_true] at hrun
  by_cases hk : k' = k
  · subst hk
    simp [rspStatus, unmasked, put, hua, over_nil, putA] at hrun
    subst hrun
    refine ⟨_, _, rfl, rfl, ?_, ?_⟩
    · simp [encrypted]
    · rw [if_pos rfl]
      exact ⟨rfl, by simp [encrypted]⟩
  · simp [rspStatus, unmasked, put, hua, over_nil, putA, hk, authenticationFailure] at hrun
    subst hrun
    refine ⟨_, _, rfl, rfl, ?_, ?_⟩
    · simp [encrypted]
    · rw [if_neg hk]
      exact ⟨rfl, by simp [encrypted]⟩

/-- **C74.** If the peripheral's host has no key, the central's host is told that the key is missing, and nothing changes. -/
theorem C74_no_key (n : Net) (ca cb : Conn) (ha : n.a.conns n.ha = some ca) (hb : n.b.conns n.hb = some cb)
    (hea : ca.encrypted = false)
    (hq : n.toA = [] ∧ n.toB = [] ∧ n.a.tasks = [])
    (hua : n.a.mask.testBit 7 = true) (hub : n.b.mask.testBit 61 = true)
    (rand : List UInt8) (ediv : Nat) (k : Key) :
    ∃ n' l, nrun n [.hostA (.enable n.ha rand ediv k), .taskA, .arriveB, .hostB (.negative n.hb), .arriveA] = some (n', l) ∧
      eventsB l = [.ltkRequest n.hb rand ediv] ∧ eventsA l = [.encChange 0x06 n.ha false] ∧
      encrypted n'.a n.ha = some false ∧ encrypted n'.b n.hb = encrypted n.b n.hb := by
  obtain ⟨a, b, kA, kB, toA, toB⟩ := n
  simp only at *
  obtain ⟨rfl, rfl, ht⟩ := hq
  have u1 : unmasked b 0x3e = true := by simp [unmasked, hub]
  have hst : ∀ (c : Conn) z, rspStatus c 6 z = 6 := by intro c z; simp [rspStatus]
  generalize hrun : nrun ⟨a, b, kA, kB, [], []⟩ _ = res
  simp only [nrun, nstep, command, enable, ha, Option.map_some, putA, putB, over_nil, List.append_nil, runTask, ht,
    List.nil_append, over_one, receive, hb, onEnc, negative, put_same, Bool.false_eq_true, if_false, onEncRsp, hea, tell,
    u1, if_true, hst, keyMissing] at hrun
  simp [unmasked, put, hua, over_nil, putA] at hrun
  subst hrun
  exact ⟨_, _, rfl, rfl, rfl, by simp [encrypted], by simp [encrypted, hb]⟩

/-! ## Examples -/

/-- Two keys. -/
def key1 : Key := List.replicate 16 1
def key2 : Key := List.replicate 16 2

/-- An orderly history: refused, then encrypted, then the key refreshed. -/
def procedures : List NAct :=
  [.hostA (.enable 1 [] 0 key1), .hostA (.readFeatures 1), .taskA, .arriveB, .arriveB, .hostB (.negative 2), .arriveA, .arriveA,
   .hostA (.enable 1 [] 0 key1), .taskA, .arriveB, .hostB (.reply 2 key1), .arriveA,
   .hostA (.enable 1 [] 0 key2), .taskA, .arriveB, .hostB (.reply 2 key2), .arriveA]

/-- The history is orderly and its procedures are over; both ends are encrypted. -/
example : orderlyRun ⟨none, false⟩ demo procedures = true ∧ (talk ⟨none, false⟩ demo procedures).key = none ∧
    (nrun demo procedures).map (fun r => (encrypted r.1.a 1, encrypted r.1.b 2, encEnds 1 (eventsA r.2), ltkAsks 2 (eventsB r.2))) =
      some (some true, some true, [6, 0, 0], 3) := by decide +kernel

example : demo.a.mask.testBit 7 = true ∧ demo.a.mask.testBit 47 = true ∧ demo.b.mask.testBit 61 = true ∧
    demo.b.mask2.testBit 24 = false := by decide +kernel

/-- The step of `C74_same_key` occurs. -/
example : ((nrun demo (procedures.take 12)).bind (fun r => nstep r.1 .arriveA)).map (fun r => encEnds 1 r.2.evA) = some [0] := by
  decide +kernel

/-! ## Where the property is false -/

/-- **C74, false in part.** The peripheral's host replies with a wrong key: nothing is on its way any more, and the
peripheral's end is encrypted but the central's is not. -/
theorem C74_wrong_key_violated : ∃ n xs n' l, Joined n ∧ nrun n xs = some (n', l) ∧ n'.toA = [] ∧ n'.toB = [] ∧
    encrypted n'.a n.ha = some false ∧ encrypted n'.b n.hb = some true ∧
    eventsB l = [.ltkRequest n.hb [] 0, .encChange 0 n.hb true] := by
  have h : (nrun demo [.hostA (.enable 1 [] 0 key1), .taskA, .arriveB, .hostB (.reply 2 key2), .arriveA]).map
      (fun r => ((r.1.toA, r.1.toB), (encrypted r.1.a 1, encrypted r.1.b 2), eventsB r.2)) =
      some (([], []), (some false, some true), [.ltkRequest 2 [] 0, .encChange 0 2 true]) := by decide +kernel
  rw [Option.map_eq_some_iff] at h
  obtain ⟨⟨n', l⟩, h1, h2⟩ := h
  simp only [Prod.mk.injEq] at h2
  exact ⟨demo, _, n', l, demo_joined, h1, h2.1.1, h2.1.2, h2.2.1.1, h2.2.1.2, h2.2.2⟩

/-- **C74.** Encryption commands for a connection that does not exist are refused: nothing changes, nothing is sent and no
event follows. Those for a connection that exists are accepted. -/
theorem C74_unknown (d : Dev) (h : Nat) (x : Cmd)
    (hx : (∃ rand ediv k, x = .enable h rand ediv k) ∨ (∃ k, x = .reply h k) ∨ x = .negative h) :
    (d.conns h = none → command d x = some ⟨0x02, d, [], []⟩) ∧
    ((d.conns h).isSome = true → (command d x).map (·.status) = some 0) := by
  constructor
  · intro hn
    rcases hx with ⟨rand, ediv, k, rfl⟩ | ⟨k, rfl⟩ | rfl <;> simp [command, enable, reply, negative, hn]
  · intro hs
    obtain ⟨c, hc⟩ := Option.isSome_iff_exists.mp hs
    rcases hx with ⟨rand, ediv, k, rfl⟩ | ⟨k, rfl⟩ | rfl
    · simp [command, enable, hc]
    · simp only [command, reply, hc]; split <;> rfl
    · simp [command, negative, hc]

example : (command (demoDev 1 .central) (.enable 3 [] 0 key1)).map (·.status) = some 2 := by decide +kernel

/-- **C74, false in part.** A reply that nobody has asked for encrypts both ends, although neither host has enabled
encryption. -/
theorem C74_unasked_violated : ∃ n xs n' l, Joined n ∧ nrun n xs = some (n', l) ∧ enabled n.ha (cmdsA xs) = [] ∧
    enabled n.hb (cmdsB xs) = [] ∧ encrypted n'.a n.ha = some true ∧ encrypted n'.b n.hb = some true ∧
    eventsA l = [.encChange 0 n.ha true] := by
  have h : (nrun demo [.hostB (.reply 2 key2), .arriveA]).map
      (fun r => (encrypted r.1.a 1, encrypted r.1.b 2, eventsA r.2)) =
      some (some true, some true, [.encChange 0 1 true]) := by decide +kernel
  rw [Option.map_eq_some_iff] at h
  obtain ⟨⟨n', l⟩, h1, h2⟩ := h
  simp only [Prod.mk.injEq] at h2
  exact ⟨demo, _, n', l, demo_joined, h1, rfl, rfl, h2⟩

/-- **C74, false in part.** The peripheral's host may enable encryption: its controller accepts the command, and the
central's host is asked for the key. -/
theorem C74_role_violated : ∃ n xs n' l, Joined n ∧ nrun n xs = some (n', l) ∧ enabled n.ha (cmdsA xs) = [] ∧
    l.map (·.status) = [0, 0, 0] ∧ ltkAsks n.ha (eventsA l) = 1 := by
  have h : (nrun demo [.hostB (.enable 2 [] 0 key1), .taskB, .arriveA]).map
      (fun r => (r.2.map (·.status), ltkAsks 1 (eventsA r.2))) = some ([0, 0, 0], 1) := by decide +kernel
  rw [Option.map_eq_some_iff] at h
  obtain ⟨⟨n', l⟩, h1, h2⟩ := h
  simp only [Prod.mk.injEq] at h2
  exact ⟨demo, _, n', l, demo_joined, h1, rfl, h2⟩

/-- **C74, false in part.** The central's host enables encryption twice, with two keys, and the peripheral's host answers
the first request with its key and the second negatively: the central's host is told twice that it failed, and only the
peripheral's end is encrypted. -/
theorem C74_overlap_violated : ∃ n xs n' l, Joined n ∧ nrun n xs = some (n', l) ∧ n'.toA = [] ∧ n'.toB = [] ∧
    enabled n.ha (cmdsA xs) = [key1, key2] ∧ replied n.hb (cmdsB xs) = [key1] ∧
    encrypted n'.a n.ha = some false ∧ encrypted n'.b n.hb = some true ∧ encEnds n.ha (eventsA l) = [5, 6] := by
  have h : (nrun demo [.hostA (.enable 1 [] 0 key1), .taskA, .hostA (.enable 1 [] 1 key2), .taskA, .arriveB,
      .hostB (.reply 2 key1), .arriveB, .hostB (.negative 2), .arriveA, .arriveA]).map
      (fun r => ((r.1.toA, r.1.toB), (encrypted r.1.a 1, encrypted r.1.b 2), encEnds 1 (eventsA r.2))) =
      some (([], []), (some false, some true), [5, 6]) := by decide +kernel
  rw [Option.map_eq_some_iff] at h
  obtain ⟨⟨n', l⟩, h1, h2⟩ := h
  simp only [Prod.mk.injEq] at h2
  exact ⟨demo, _, n', l, demo_joined, h1, h2.1.1, h2.1.2, by decide, by decide, h2.2.1.1, h2.2.1.2, h2.2.2⟩

end Verif.Link
