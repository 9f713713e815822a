import Verif.Link.EncLemmas
import Verif.Link.PropsPhy
/-!
# C76 and C77: data, features and versions of an LE link -/
namespace Verif.Link

theorem onAir_append (a b : List Pkt) : onAir (a ++ b) = onAir a ++ onAir b := by simp [onAir]
theorem sent_append (h : Nat) (a b : List Cmd) : sent h (a ++ b) = sent h a ++ sent h b := by simp [sent]
theorem got_append (h : Nat) (a b : List Ev) : got h (a ++ b) = got h a ++ got h b := by simp [got]
theorem acknowledged_append (h : Nat) (a b : List Ev) : acknowledged h (a ++ b) = acknowledged h a + acknowledged h b := by
  simp [acknowledged]

theorem got_other {h : Nat} {l : List Ev} (hl : ∀ e ∈ l, e.handle ≠ h) : got h l = [] := by
  simp only [got, List.filterMap_eq_nil_iff]
  intro e he
  have := hl e he
  cases e <;> simp_all [Ev.handle]

theorem acknowledged_other {h : Nat} : ∀ {l : List Ev}, (∀ e ∈ l, e.handle ≠ h) → acknowledged h l = 0
  | [], _ => rfl
  | e :: l, hl => by
    have he := hl e (by simp)
    have ih := acknowledged_other (fun e he => hl e (List.mem_cons_of_mem _ he)) (l := l)
    simp only [acknowledged, List.map_cons, List.sum_cons] at ih ⊢
    rw [ih]
    cases e <;> simp_all [Ev.handle]

theorem sent_other {d : Dev} {m : Move} {h : Nat} (hh : m.handle d ≠ some h) : sent h m.cmds = [] := by
  cases m with
  | cmd c => cases c <;> simp_all [Move.cmds, Move.handle, sent]
  | _ => rfl

/-- What a step does to the data. -/
theorem data_move {d : Dev} {m : Move} {o : Out} (hr : m.run d = some o) {h : Nat} {c : Conn} (hc : d.conns h = some c) :
    onAir (over h o.out) = sent h m.cmds ∧ got h o.ev = (onAir (m.arrived h)).map asReceived ∧
    acknowledged h o.ev = (sent h m.cmds).length ∧ ∃ c', o.dev.conns h = some c' := by
  by_cases hh : m.handle d = some h
  rotate_left
  · obtain ⟨h1, h2, h3, _⟩ := frame hr hh
    rw [h2, sent_other hh, got_other h3, arrived_other hh, acknowledged_other h3, h1]
    exact ⟨rfl, rfl, rfl, c, hc⟩
  cases effect hr hc hh <;> (try rw [arrived_rcv]) <;> rw [show ∀ a b c e, (Out.mk a b c e).out = c from fun _ _ _ _ => rfl] <;>
    (try rw [over_one]) <;> (try rw [over_nil]) <;>
    refine ⟨?_, ?_, ?_, ?_⟩ <;> first
      | rfl
      | (simp [onAir, sent, Move.cmds]; done)
      | (simp only [tell]; (repeat' split) <;> rfl)
      | (simp [got, onAir, asReceived]; done)
      | (simp [acknowledged, sent, Move.cmds]; done)
      | exact ⟨_, hc⟩
      | exact ⟨_, put_same _ _ _⟩

/-- **C76.** After any history, what a host has got on the connection, followed by what is on its way, is what the other
host has sent: in order, each packet once, unchanged but for the mark of a first fragment. Each packet has been
acknowledged to its sender exactly once. -/
theorem C76_data {n n' : Net} {xs : List NAct} {l : List Seen} (h : Joined n) (hr : nrun n xs = some (n', l)) :
    got n.hb (eventsB l) ++ (onAir n'.toB).map asReceived = (sent n.ha (cmdsA xs)).map asReceived ∧
    got n.ha (eventsA l) ++ (onAir n'.toA).map asReceived = (sent n.hb (cmdsB xs)).map asReceived ∧
    acknowledged n.ha (eventsA l) = (sent n.ha (cmdsA xs)).length ∧
    acknowledged n.hb (eventsB l) = (sent n.hb (cmdsB xs)).length := by
  have := nrun_track (P := fun m xs l => m.ha = n.ha ∧ m.hb = n.hb ∧ (∃ ca, m.a.conns n.ha = some ca) ∧
      (∃ cb, m.b.conns n.hb = some cb) ∧
      got n.hb (eventsB l) ++ (onAir m.toB).map asReceived = (sent n.ha (cmdsA xs)).map asReceived ∧
      got n.ha (eventsA l) ++ (onAir m.toA).map asReceived = (sent n.hb (cmdsB xs)).map asReceived ∧
      acknowledged n.ha (eventsA l) = (sent n.ha (cmdsA xs)).length ∧
      acknowledged n.hb (eventsB l) = (sent n.hb (cmdsB xs)).length)
    (fun n0 x n1 s xs l hp hs => ?_) hr ⟨rfl, rfl, ⟨_, h.a⟩, ⟨_, h.b⟩, by rw [h.toB]; rfl, by rw [h.toA]; rfl, rfl, rfl⟩
  · exact this.2.2.2.2
  · obtain ⟨e1, e2, ⟨ca, ha⟩, ⟨cb, hb⟩, p1, p2, p3, p4⟩ := hp
    rcases nstep_split hs with ⟨rfl, v1, v2, v3, v4⟩ | ⟨m, o, q, hm, hq, rfl, v1, v2, v3, v4, -⟩ |
      ⟨m, o, q, hm, hq, rfl, v1, v2, v3, v4, -⟩
    · refine ⟨e1, e2, ⟨ca, ha⟩, ⟨cb, hb⟩, ?_⟩
      rw [cmdsA_snoc, cmdsB_snoc, eventsA_snoc, eventsB_snoc, v1, v2, v3, v4]
      simpa using ⟨p1, p2, p3, p4⟩
    · rw [e1] at hq
      obtain ⟨g1, g2, g3, g4⟩ := data_move hm ha
      rw [cmdsA_snoc, cmdsB_snoc, eventsA_snoc, eventsB_snoc, v1, v2, v3, v4]
      simp only [List.append_nil, sent_append, onAir_append, got_append, acknowledged_append, List.map_append, e1, g1, g2, g3,
        List.length_append]
      rw [hq, onAir_append, List.map_append] at p2
      refine ⟨trivial, e2, g4, ⟨cb, hb⟩, ?_, ?_, ?_, p4⟩
      · rw [← p1, List.append_assoc]
      · rw [List.append_assoc]; exact p2
      · rw [p3]
    · rw [e2] at hq
      obtain ⟨g1, g2, g3, g4⟩ := data_move hm hb
      rw [cmdsA_snoc, cmdsB_snoc, eventsA_snoc, eventsB_snoc, v1, v2, v3, v4]
      simp only [List.append_nil, sent_append, onAir_append, got_append, acknowledged_append, List.map_append, e2, g1, g2, g3,
        List.length_append]
      rw [hq, onAir_append, List.map_append] at p1
      refine ⟨e1, trivial, ⟨ca, ha⟩, g4, ?_, ?_, p3, ?_⟩
      · rw [List.append_assoc]; exact p1
      · rw [← p2, List.append_assoc]
      · rw [p4]

/-- Data in both directions; part of it is on its way. -/
def traffic : List NAct := [.hostA (.acl 1 0 0 [1, 2]), .hostA (.acl 1 1 0 [3]), .hostB (.acl 2 0 0 [9]), .arriveB, .arriveA]

example : (nrun demo traffic).map (fun r => got 2 (eventsB r.2)) = some [(2, 0, [1, 2])] := by decide +kernel
example : (nrun demo traffic).map (fun r => got 1 (eventsA r.2)) = some [(2, 0, [9])] := by decide +kernel
example : (nrun demo traffic).map (fun r => (onAir r.1.toB, acknowledged 1 (eventsA r.2))) = some ([(1, 0, [3])], 2) := by
  decide +kernel

/-- **C76.** No command of a host makes its controller abort, but data with a broadcast flag. -/
theorem C76_no_abort (n : Net) (x : NAct) (c : Cmd) (hx : x = .hostA c ∨ x = .hostB c) (hn : nstep n x = none) :
    ∃ h pb bc data, c = .acl h pb bc data ∧ bc ≠ 0 := by
  have : ∀ d : Dev, command d c = none → ∃ h pb bc data, c = .acl h pb bc data ∧ bc ≠ 0 := by
    intro d
    cases c <;> simp only [command, setDefaultPhy, setPhy, enable, reply, negative, ask, sendAcl, reduceCtorEq, false_and,
      exists_false, imp_false] <;> (repeat' split) <;> first
      | (intro hn; cases hn; done)
      | (rename_i hb; exact fun _ => ⟨_, _, _, _, rfl, hb⟩)
      | simp
  rcases hx with rfl | rfl <;> simp only [nstep, Option.map_eq_none_iff] at hn <;> exact this _ hn

/-- **C76, false in part.** A packet with a broadcast flag makes the controller of its sender abort. -/
theorem C76_broadcast_violated : ∃ n x, Joined n ∧ nrun n [x] = none ∧ x = .hostA (.acl n.ha 2 1 []) :=
  ⟨demo, .hostA (.acl 1 2 1 []), demo_joined, by decide +kernel, rfl⟩

/-! ## C77 -/

theorem toldFeatures_append (h : Nat) (a b : List Ev) : toldFeatures h (a ++ b) = toldFeatures h a ++ toldFeatures h b := by
  simp [toldFeatures]
theorem toldVersions_append (h : Nat) (a b : List Ev) : toldVersions h (a ++ b) = toldVersions h a ++ toldVersions h b := by
  simp [toldVersions]
theorem featureAir_append (a b : List Pkt) (x : Bool) : featureAir (a ++ b) x = featureAir a x + featureAir b x := by
  simp [featureAir]
theorem versionAir_append (a b : List Pkt) (x : Bool) : versionAir (a ++ b) x = versionAir a x + versionAir b x := by
  simp [versionAir]
theorem featureAsks_append (h : Nat) (a b : List Cmd) : featureAsks h (a ++ b) = featureAsks h a + featureAsks h b := by
  simp [featureAsks]
theorem versionAsks_append (h : Nat) (a b : List Cmd) : versionAsks h (a ++ b) = versionAsks h a + versionAsks h b := by
  simp [versionAsks]

theorem toldFeatures_other {h : Nat} {l : List Ev} (hl : ∀ e ∈ l, e.handle ≠ h) : toldFeatures h l = [] := by
  simp only [toldFeatures, List.filterMap_eq_nil_iff]
  intro e he
  have := hl e he
  cases e <;> simp_all [Ev.handle]

theorem toldVersions_other {h : Nat} {l : List Ev} (hl : ∀ e ∈ l, e.handle ≠ h) : toldVersions h l = [] := by
  simp only [toldVersions, List.filterMap_eq_nil_iff]
  intro e he
  have := hl e he
  cases e <;> simp_all [Ev.handle]

theorem asks_other {d : Dev} {m : Move} {h : Nat} (hh : m.handle d ≠ some h) :
    featureAsks h m.cmds = 0 ∧ versionAsks h m.cmds = 0 := by
  cases m with
  | cmd c => cases c <;> simp_all [Move.cmds, Move.handle, featureAsks, versionAsks]
  | _ => exact ⟨rfl, rfl⟩

/-- The answers about features among packets. -/
def featureRsps (q : List Pkt) : List (Nat × Nat) := q.filterMap (fun p => match p with
  | .featRsp f st => some (st, f)
  | _ => none)

/-- The answers about versions among packets. -/
def versionRsps (q : List Pkt) : List (Nat × Nat × Nat) := q.filterMap (fun p => match p with
  | .verRsp v s m => some (v, m, s)
  | _ => none)

theorem featureRsps_append (a b : List Pkt) : featureRsps (a ++ b) = featureRsps a ++ featureRsps b := by simp [featureRsps]
theorem versionRsps_append (a b : List Pkt) : versionRsps (a ++ b) = versionRsps a ++ versionRsps b := by simp [versionRsps]

theorem featureRsps_length (q : List Pkt) : (featureRsps q).length = featureAir q true := by
  induction q with
  | nil => rfl
  | cons p q ih =>
    rw [show p :: q = [p] ++ q from rfl, featureRsps_append, featureAir_append, List.length_append, ih]
    cases p <;> rfl

theorem versionRsps_length (q : List Pkt) : (versionRsps q).length = versionAir q true := by
  induction q with
  | nil => rfl
  | cons p q ih =>
    rw [show p :: q = [p] ++ q from rfl, versionRsps_append, versionAir_append, List.length_append, ih]
    cases p <;> rfl

/-- What a step does to questions and answers. -/
theorem info_move {d : Dev} {m : Move} {o : Out} (hr : m.run d = some o) {h : Nat} {c : Conn} (hc : d.conns h = some c) :
    (featureAir (over h o.out) false = featureAsks h m.cmds ∧ versionAir (over h o.out) false = versionAsks h m.cmds) ∧
    featureRsps (over h o.out) = List.replicate (featureAir (m.arrived h) false) (0, d.features) ∧
    versionRsps (over h o.out) = List.replicate (versionAir (m.arrived h) false) (d.version, d.company, d.subversion % 256) ∧
    (d.mask.testBit 61 = true → toldFeatures h o.ev = featureRsps (m.arrived h)) ∧
    (d.mask.testBit 11 = true → toldVersions h o.ev = versionRsps (m.arrived h)) := by
  by_cases hh : m.handle d = some h
  rotate_left
  · obtain ⟨h1, h2, h3, _⟩ := frame hr hh
    rw [h2, (asks_other hh).1, (asks_other hh).2, arrived_other hh, toldFeatures_other h3, toldVersions_other h3]
    exact ⟨⟨rfl, rfl⟩, rfl, rfl, fun _ => rfl, fun _ => rfl⟩
  have u1 : d.mask.testBit 61 = true → unmasked d 0x3e = true := fun h => by simp [unmasked, h]
  have u2 : d.mask.testBit 11 = true → unmasked d 0x0c = true := fun h => by simp [unmasked, h]
  cases effect hr hc hh <;> (try rw [arrived_rcv]) <;> rw [show ∀ a b c e, (Out.mk a b c e).out = c from fun _ _ _ _ => rfl] <;>
    (try rw [over_one]) <;> (try rw [over_nil]) <;>
    refine ⟨⟨?_, ?_⟩, ?_, ?_, fun hu => ?_, fun hu => ?_⟩ <;> first
      | rfl
      | (simp [featureAir, featureAsks, versionAir, versionAsks, Move.cmds]; done)
      | (simp only [tell]; (repeat' split) <;> rfl)
      | (simp [tell, u1 hu, toldFeatures, featureRsps]; done)
      | (simp [tell, u2 hu, toldVersions, versionRsps]; done)

/-- **C77.** A host that asks for the features of its peer is told the features of the peer, with success, and once for
each time it asks: the answers it has got, those on their way and the questions on their way make up all it has asked. -/
theorem C77_features {n n' : Net} {xs : List NAct} {l : List Seen} (h : Joined n) (hr : nrun n xs = some (n', l))
    (hu : n.a.mask.testBit 61 = true) (hc : ∀ c ∈ cmdsA xs, hearsLe c = true) :
    (∀ r ∈ toldFeatures n.ha (eventsA l), r = (0, n.b.features)) ∧
    featureAsks n.ha (cmdsA xs) = (toldFeatures n.ha (eventsA l)).length + featureAir n'.toA true + featureAir n'.toB false := by
  have := nrun_track (P := fun m xs l => m.ha = n.ha ∧ m.hb = n.hb ∧ (∃ ca, m.a.conns n.ha = some ca) ∧
      (∃ cb, m.b.conns n.hb = some cb) ∧ m.b.features = n.b.features ∧ ((∀ c ∈ cmdsA xs, hearsLe c = true) →
      m.a.mask.testBit 61 = true ∧
      (∀ r ∈ toldFeatures n.ha (eventsA l) ++ featureRsps m.toA, r = (0, n.b.features)) ∧
      featureAsks n.ha (cmdsA xs) = (toldFeatures n.ha (eventsA l) ++ featureRsps m.toA).length + featureAir m.toB false))
    (fun n0 x n1 s xs l hp hs => ?_) hr ⟨rfl, rfl, ⟨_, h.a⟩, ⟨_, h.b⟩, rfl, fun _ => ⟨hu, by rw [h.toA]; nofun, by
      rw [h.toA, h.toB]; rfl⟩⟩
  · obtain ⟨-, h1, h2⟩ := this.2.2.2.2.2 hc
    refine ⟨fun r hr => h1 r (List.mem_append_left _ hr), ?_⟩
    rw [h2, List.length_append, featureRsps_length]
  · obtain ⟨e1, e2, ⟨ca, ha⟩, ⟨cb, hb⟩, hf, hp⟩ := hp
    rcases nstep_split hs with ⟨rfl, v1, v2, v3, v4⟩ | ⟨m, o, q, hm, hq, rfl, v1, v2, v3, v4, -⟩ |
      ⟨m, o, q, hm, hq, rfl, v1, v2, v3, v4, -⟩
    · refine ⟨e1, e2, ⟨ca, ha⟩, ⟨cb, hb⟩, hf, ?_⟩
      rw [cmdsA_snoc, eventsA_snoc, v1, v3]
      simpa using hp
    · rw [e1] at hq
      obtain ⟨g1, -, -, g4, -⟩ := info_move hm ha
      obtain ⟨-, -, -, g5⟩ := data_move hm ha
      refine ⟨e1, e2, g5, ⟨cb, hb⟩, hf, fun hcs => ?_⟩
      rw [cmdsA_snoc, v3] at hcs
      simp only [List.mem_append] at hcs
      obtain ⟨p1, p2, p3⟩ := hp (fun c h => hcs c (Or.inl h))
      rw [hq, featureRsps_append] at p2 p3
      refine ⟨mask_move hm 61 (fun x hx => hcs _ (Or.inr hx)) p1, ?_, ?_⟩
      · rw [eventsA_snoc, v1, toldFeatures_append, g4 p1, List.append_assoc]
        exact p2
      · rw [cmdsA_snoc, featureAsks_append, v3, eventsA_snoc, v1, toldFeatures_append, g4 p1, List.append_assoc, p3]
        simp only [featureAir_append, e1, g1.1]
        omega
    · rw [e2] at hq
      obtain ⟨-, g2, -, -, -⟩ := info_move hm hb
      obtain ⟨-, -, -, g5⟩ := data_move hm hb
      refine ⟨e1, e2, ⟨ca, ha⟩, g5, by simp only [(settings hm).2.2.2.1, hf], fun hcs => ?_⟩
      rw [cmdsA_snoc, v4, List.append_nil] at hcs
      obtain ⟨p1, p2, p3⟩ := hp hcs
      rw [hq, featureAir_append] at p3
      refine ⟨p1, ?_, ?_⟩
      · rw [eventsA_snoc, v2, List.append_nil]
        simp only [featureRsps_append, e2, g2, hf]
        intro r hr
        rw [← List.append_assoc, List.mem_append] at hr
        rcases hr with hr | hr
        · exact p2 r hr
        · exact (List.mem_replicate.mp hr).2
      · rw [cmdsA_snoc, v4, List.append_nil, eventsA_snoc, v2, List.append_nil, p3]
        simp only [featureRsps_append, e2, g2, List.length_append, List.length_replicate]
        omega

/-- **C77, in part.** Likewise for the version: the version and the company of the peer, and the low eight bits of its
subversion (see `C77_subversion_violated`). -/
theorem C77_version_partial {n n' : Net} {xs : List NAct} {l : List Seen} (h : Joined n) (hr : nrun n xs = some (n', l))
    (hu : n.a.mask.testBit 11 = true) (hc : ∀ c ∈ cmdsA xs, hearsVersion c = true) :
    (∀ r ∈ toldVersions n.ha (eventsA l), r = (n.b.version, n.b.company, n.b.subversion % 256)) ∧
    versionAsks n.ha (cmdsA xs) = (toldVersions n.ha (eventsA l)).length + versionAir n'.toA true + versionAir n'.toB false := by
  have := nrun_track (P := fun m xs l => m.ha = n.ha ∧ m.hb = n.hb ∧ (∃ ca, m.a.conns n.ha = some ca) ∧
      (∃ cb, m.b.conns n.hb = some cb) ∧ (m.b.version = n.b.version ∧ m.b.company = n.b.company ∧
      m.b.subversion = n.b.subversion) ∧ ((∀ c ∈ cmdsA xs, hearsVersion c = true) →
      m.a.mask.testBit 11 = true ∧
      (∀ r ∈ toldVersions n.ha (eventsA l) ++ versionRsps m.toA, r = (n.b.version, n.b.company, n.b.subversion % 256)) ∧
      versionAsks n.ha (cmdsA xs) = (toldVersions n.ha (eventsA l) ++ versionRsps m.toA).length + versionAir m.toB false))
    (fun n0 x n1 s xs l hp hs => ?_) hr ⟨rfl, rfl, ⟨_, h.a⟩, ⟨_, h.b⟩, ⟨rfl, rfl, rfl⟩, fun _ => ⟨hu, by rw [h.toA]; nofun, by
      rw [h.toA, h.toB]; rfl⟩⟩
  · obtain ⟨-, h1, h2⟩ := this.2.2.2.2.2 hc
    refine ⟨fun r hr => h1 r (List.mem_append_left _ hr), ?_⟩
    rw [h2, List.length_append, versionRsps_length]
  · obtain ⟨e1, e2, ⟨ca, ha⟩, ⟨cb, hb⟩, hf, hp⟩ := hp
    rcases nstep_split hs with ⟨rfl, v1, v2, v3, v4⟩ | ⟨m, o, q, hm, hq, rfl, v1, v2, v3, v4, -⟩ |
      ⟨m, o, q, hm, hq, rfl, v1, v2, v3, v4, -⟩
    · refine ⟨e1, e2, ⟨ca, ha⟩, ⟨cb, hb⟩, hf, ?_⟩
      rw [cmdsA_snoc, eventsA_snoc, v1, v3]
      simpa using hp
    · rw [e1] at hq
      obtain ⟨g1, -, -, -, g4⟩ := info_move hm ha
      obtain ⟨-, -, -, g5⟩ := data_move hm ha
      refine ⟨e1, e2, g5, ⟨cb, hb⟩, hf, fun hcs => ?_⟩
      rw [cmdsA_snoc, v3] at hcs
      simp only [List.mem_append] at hcs
      obtain ⟨p1, p2, p3⟩ := hp (fun c h => hcs c (Or.inl h))
      rw [hq, versionRsps_append] at p2 p3
      refine ⟨mask_move hm 11 (fun x hx => hcs _ (Or.inr hx)) p1, ?_, ?_⟩
      · rw [eventsA_snoc, v1, toldVersions_append, g4 p1, List.append_assoc]
        exact p2
      · rw [cmdsA_snoc, versionAsks_append, v3, eventsA_snoc, v1, toldVersions_append, g4 p1, List.append_assoc, p3]
        simp only [versionAir_append, e1, g1.2]
        omega
    · rw [e2] at hq
      obtain ⟨-, -, g2, -, -⟩ := info_move hm hb
      obtain ⟨-, -, -, g5⟩ := data_move hm hb
      obtain ⟨-, -, -, -, s1, s2, s3, -⟩ := settings hm
      refine ⟨e1, e2, ⟨ca, ha⟩, g5, ⟨s1.trans hf.1, s3.trans hf.2.1, s2.trans hf.2.2⟩, fun hcs => ?_⟩
      rw [cmdsA_snoc, v4, List.append_nil] at hcs
      obtain ⟨p1, p2, p3⟩ := hp hcs
      rw [hq, versionAir_append] at p3
      refine ⟨p1, ?_, ?_⟩
      · rw [eventsA_snoc, v2, List.append_nil]
        simp only [versionRsps_append, e2, g2, hf.1, hf.2.1, hf.2.2]
        intro r hr
        rw [← List.append_assoc, List.mem_append] at hr
        rcases hr with hr | hr
        · exact p2 r hr
        · exact (List.mem_replicate.mp hr).2
      · rw [cmdsA_snoc, v4, List.append_nil, eventsA_snoc, v2, List.append_nil, p3]
        simp only [versionRsps_append, e2, g2, List.length_append, List.length_replicate]
        omega

/-- Two questions, one of each kind; the answers come in order. -/
example : (nrun demo [.hostA (.readFeatures 1), .hostA (.readVersion 1), .arriveB, .arriveB, .arriveA, .arriveA]).map
      (fun r => (toldFeatures 1 (eventsA r.2), toldVersions 1 (eventsA r.2))) =
    some ([(0, 0xff)], [(13, 0xe0, 0x23)]) := by decide +kernel

/-- **C77, false in part.** The subversion that the host is told is not the peer's: the packet carries eight bits of it. -/
theorem C77_subversion_violated : ∃ n xs n' l, Joined n ∧ nrun n xs = some (n', l) ∧
    toldVersions n.ha (eventsA l) = [(n.b.version, n.b.company, 0x23)] ∧ n.b.subversion = 0x123 := by
  have h : (nrun demo [.hostA (.readVersion 1), .arriveB, .arriveA]).map (fun r => toldVersions 1 (eventsA r.2)) =
      some [(13, 0xe0, 0x23)] := by decide +kernel
  rw [Option.map_eq_some_iff] at h
  obtain ⟨⟨n', l⟩, h1, h2⟩ := h
  exact ⟨demo, _, n', l, demo_joined, h1, h2, rfl⟩

end Verif.Link
