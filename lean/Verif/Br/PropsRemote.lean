import Verif.Br.PropsInquiry
/-!
# C69: what a host learns about a remote device is what that device says

C69: the name, features and version a host is told of a remote device are those of that device, and a request that was
accepted is always answered. -/
namespace Verif.Br

/-- What `touch` leaves alone. -/
theorem touch_rest (s : Ctl) (now y : Nat) : (touch s now y).info = s.info ∧ (touch s now y).addr = s.addr ∧ (touch s now y).mask = s.mask := by
  unfold touch
  split <;> exact ⟨rfl, rfl, rfl⟩

theorem tell_touch (s : Ctl) (now y code : Nat) (e : Ev) : tell (touch s now y) code e = tell s code e := by
  unfold tell unmasked
  rw [(touch_rest s now y).2.2]

theorem nrun_three {n n1 n2 n3 : Net} {t0 t1 t2 : Nat} {x0 x1 x2 : NAct} {a1 a2 a3 b1 b2 b3 : List Ev}
    (h1 : nstep n t0 x0 = some (n1, a1, b1)) (h2 : nstep n1 t1 x1 = some (n2, a2, b2)) (h3 : nstep n2 t2 x2 = some (n3, a3, b3)) :
    nrun n [(t0, x0), (t1, x1), (t2, x2)] = some (n3, a1 ++ (a2 ++ (a3 ++ [])), b1 ++ (b2 ++ (b3 ++ []))) := by
  simp only [nrun, h1, h2, h3, Option.map_some]

/-- A question of A's host, B's answer and A's event. -/
theorem asked {sa sb : Ctl} (hi : Inv sa) {h : Nat} (hl : linked sa h sb.addr) {c : Cmd} {q : Pkt} (hc : ∀ now, command sa now c = ask sa h q)
    {ans : Pkt} (hb : ∀ now, dispatch (touch sb now sa.addr) now sa.addr 0 q = .ok 0 (touch sb now sa.addr) [(sa.addr, ans)] []) {code : Nat} {e : Nat → Ev}
    (ha : ∀ now, dispatch (touch sa now sb.addr) now sb.addr 0 ans = report (touch sa now sb.addr) sb.addr code e) (t0 t1 t2 : Nat) :
    ∃ n', nrun ⟨sa, sb, [], []⟩ [(t0, .hostA c), (t1, .arriveB), (t2, .arriveA)] = some (n', tell sa code (e h), []) := by
  obtain ⟨c0, hm, hc0⟩ := hl
  have e1 : command sa t0 c = .ok 0 sa [(sb.addr, q)] [] := by
    rw [hc]
    simp only [ask, Conn.mem_find _ hi.sound.nodup _ _ hm, hc0]
    rfl
  have e2 : incoming sb t1 sa.addr sb.addr 0 q = .ok 0 (touch sb t1 sa.addr) [(sa.addr, ans)] [] := by
    unfold incoming
    rw [if_neg (by simp)]
    exact hb t1
  have e3 : incoming sa t2 sb.addr sa.addr 0 ans = .ok 0 (touch sa t2 sb.addr) [] (tell sa code (e h)) := by
    unfold incoming
    rw [if_neg (by simp), ha]
    obtain ⟨c', hm', hc'⟩ := touch_keep hi t2 sb.addr h c0 hm
    obtain ⟨c2, h2⟩ := aclOf_linked (touch_inv hi t2 sb.addr).1 ⟨c', hm', hc'.trans hc0⟩
    simp only [report, h2, tell_touch]
  refine ⟨⟨touch sa t2 sb.addr, touch sb t1 sa.addr, [], []⟩, ?_⟩
  have := nrun_three (hostA_step (toA := []) (toB := []) (sb := sb) e1) (arriveB_step (toA := []) (toB := []) (sa := sa) rfl e2)
    (arriveA_step (toA := []) (toB := []) (touch_rest sb t1 sa.addr).2.1 e3)
  simpa using this

/-! ## The theorems -/

/-- In every reachable state in which A is connected with B and nothing is on its way: what A's host is told of B's
features, of a page of B's extended features and of B's version is what B has. Missing: subversions above 255 and
pages above 2, for which this is false, see below and C65. -/
theorem C69_features_version_partial (a b : Nat) (ha : a ≠ 0) (hb : b ≠ 0) (ia ib : Info) (na nb : Nat) (before : List (Nat × NAct))
    (hx : before.all (fun x => named x.2) = true) (n : Net) (ea eb : List Ev) (hbefore : nrun (Net.fresh a b ia ib na nb) before = some (n, ea, eb))
    (h : Nat) (hl : linked n.a h b) (hq : n.toA = [] ∧ n.toB = []) (t0 t1 t2 : Nat) :
    (n.a.mask.testBit 10 = true → ∃ n', nrun n [(t0, .hostA (.features h)), (t1, .arriveB), (t2, .arriveA)] =
      some (n', [.features h n.b.info.features0], [])) ∧
    (n.a.mask.testBit 34 = true → ∀ page f, [n.b.info.features0, n.b.info.hostFeatures, n.b.info.features2][page]? = some f →
      ∃ n', nrun n [(t0, .hostA (.ext h page)), (t1, .arriveB), (t2, .arriveA)] = some (n', [.ext 0 h page 2 f], [])) ∧
    (n.a.mask.testBit 11 = true → n.b.info.subversion < 256 → ∃ n', nrun n [(t0, .hostA (.version h)), (t1, .arriveB), (t2, .arriveA)] =
      some (n', [.version h n.b.info.version n.b.info.company n.b.info.subversion], [])) := by
  obtain ⟨hiA, hiB, hA, hB⟩ := net_inv a b ha hb before hx ⟨fresh_inv a ia na, fresh_inv b ib nb, rfl, rfl⟩ hbefore
  clear hbefore hx
  obtain ⟨sa, sb, toA, toB⟩ := n
  simp only at *
  obtain ⟨rfl, rfl⟩ := hq
  subst hA hB
  have told : ∀ code e, sa.mask.testBit (code - 1) = true → tell sa code e = [e] := fun code e h => if_pos h
  refine ⟨fun hm => ?_, fun hm page f hf => ?_, fun hm hs => ?_⟩
  · obtain ⟨n', h1⟩ := asked (sb := sb) hiA hl (c := .features h) (q := .featuresReq) (fun _ => rfl) (ans := .featuresRsp sb.info.features0) (fun now => by
      simp only [dispatch, (touch_rest sb now sa.addr).1]) (code := 0x0b) (e := fun h => .features h sb.info.features0) (fun _ => rfl) t0 t1 t2
    exact ⟨n', by rw [h1, told _ _ hm]⟩
  · have hp : lmpFeatures sb.info page = some f ∧ ¬ page ≥ 3 := by
      match page with
      | 0 =>
        simp at hf
        simp [lmpFeatures, hf]
      | 1 =>
        simp at hf
        simp [lmpFeatures, hf]
      | 2 =>
        simp at hf
        simp [lmpFeatures, hf]
      | k + 3 => simp at hf
    obtain ⟨n', h1⟩ := asked (sb := sb) hiA hl (c := .ext h page) (q := .extReq page) (fun _ => rfl) (ans := .extRsp 0 page 2 f) (fun now => by
      simp only [dispatch, onExtReq, (touch_rest sb now sa.addr).1, hp.1]
      rw [if_neg hp.2]
      rfl) (code := 0x23) (e := fun h => .ext 0 h page 2 f) (fun _ => rfl) t0 t1 t2
    exact ⟨n', by rw [h1, told _ _ hm]⟩
  · obtain ⟨n', h1⟩ := asked (sb := sb) hiA hl (c := .version h) (q := .versionReq) (fun _ => rfl)
      (ans := .versionRsp sb.info.version (sb.info.subversion % 256) sb.info.company) (fun now => by
      simp only [dispatch, (touch_rest sb now sa.addr).1]) (code := 0x0c) (e := fun h => .version h sb.info.version sb.info.company (sb.info.subversion % 256)) (fun _ => rfl) t0 t1 t2
    refine ⟨n', ?_⟩
    rw [h1, told _ _ hm, Nat.mod_eq_of_lt hs]

example : courtship.all (fun x => named x.2) = true ∧
    (nrun exampleNet courtship).map (fun r => (r.1.a.acl.map (fun e => (e.1, e.2.addr)), r.1.toA.length + r.1.toB.length,
      r.1.a.mask.testBit 10 && r.1.a.mask.testBit 34 && r.1.a.mask.testBit 11)) = some ([(0, 0xB)], 0, true) ∧
    (nrun exampleNet (courtship ++ [(2000000000, .hostA (.ext 0 0)), (2000000000, .arriveB), (2000000000, .arriveA)])).map (fun r => r.2.1.getLast?) =
      some (some (.ext 0 0 0 2 0x875bffdbfe8fffff)) := by
  decide +kernel

/-- Connected or not, A's host is told B's name and nothing else, unless it asked for the host features event. -/
theorem C69_name (n : Net) (hq : n.toA = [] ∧ n.toB = []) (t0 t1 t2 t3 t4 : Nat) (hm : n.a.mask.testBit 6 = true) (hm' : n.a.mask.testBit 60 = false) :
    ∃ n', nrun n [(t0, .hostA (.name n.b.addr)), (t1, .arriveB), (t2, .arriveB), (t3, .arriveA), (t4, .arriveA)] =
      some (n', [.name n.b.addr n.b.info.name], []) := by
  obtain ⟨sa, sb, toA, toB⟩ := n
  simp only at *
  obtain ⟨rfl, rfl⟩ := hq
  have e2 : ∀ (s : Ctl) (t : Nat), s.addr = sb.addr → s.info = sb.info → incoming s t sa.addr sb.addr 0 .hostFeaturesReq =
      .ok 0 (touch s t sa.addr) [(sa.addr, .hostFeaturesRsp sb.info.hostFeatures)] [] := by
    intro s t h1 h2
    unfold incoming
    rw [if_neg (by simp [h1])]
    simp only [dispatch, (touch_rest s t sa.addr).1, h2]
  have e3 : ∀ (s : Ctl) (t : Nat), s.addr = sb.addr → s.info = sb.info → incoming s t sa.addr sb.addr 0 .nameReq =
      .ok 0 (touch s t sa.addr) [(sa.addr, .nameRsp sb.info.name)] [] := by
    intro s t h1 h2
    unfold incoming
    rw [if_neg (by simp [h1])]
    simp only [dispatch, (touch_rest s t sa.addr).1, h2]
  have e4 : ∀ (s : Ctl) (t f : Nat), s.addr = sa.addr → s.mask = sa.mask → incoming s t sb.addr sa.addr 0 (.hostFeaturesRsp f) =
      .ok 0 (touch s t sb.addr) [] [] := by
    intro s t f h1 h2
    unfold incoming
    rw [if_neg (by simp [h1])]
    simp only [dispatch, tell_touch]
    have h3 : ∀ e, tell s 0x3d e = [] := fun e => if_neg (by rw [show unmasked s 0x3d = s.mask.testBit 60 from rfl, h2, hm']; decide)
    rw [h3]
  have e5 : ∀ (s : Ctl) (t : Nat) (m : List UInt8), s.addr = sa.addr → s.mask = sa.mask → incoming s t sb.addr sa.addr 0 (.nameRsp m) =
      .ok 0 (touch s t sb.addr) [] [.name sb.addr m] := by
    intro s t m h1 h2
    unfold incoming
    rw [if_neg (by simp [h1])]
    simp only [dispatch, tell_touch]
    have h3 : ∀ e, tell s 0x07 e = [e] := fun e => if_pos (by rw [show unmasked s 0x07 = s.mask.testBit 6 from rfl, h2, hm])
    rw [h3]
  have i1 := touch_rest sb t1 sa.addr
  have i2 := touch_rest (touch sb t1 sa.addr) t2 sa.addr
  have i3 := touch_rest sa t3 sb.addr
  have s1 := hostA_step (sb := sb) (toA := []) (toB := []) (now := t0) (show command sa t0 (.name sb.addr) = .ok 0 sa [(sb.addr, .hostFeaturesReq), (sb.addr, .nameReq)] [] from rfl)
  have s2 := arriveB_step (sa := sa) (toA := []) (toB := [(sb.addr, .nameReq)]) rfl (e2 sb t1 rfl rfl)
  have s3 := arriveB_step (sa := sa) (toA := [(sa.addr, .hostFeaturesRsp sb.info.hostFeatures)]) (toB := []) rfl (e3 (touch sb t1 sa.addr) t2 i1.2.1 i1.1)
  have s4 := arriveA_step (sb := touch (touch sb t1 sa.addr) t2 sa.addr) (toA := [(sa.addr, .nameRsp sb.info.name)]) (toB := []) (i2.2.1.trans i1.2.1) (e4 sa t3 sb.info.hostFeatures rfl rfl)
  have s5 := arriveA_step (sb := touch (touch sb t1 sa.addr) t2 sa.addr) (toA := []) (toB := []) (i2.2.1.trans i1.2.1) (e5 (touch sa t3 sb.addr) t4 sb.info.name i3.2.1 i3.2.2)
  refine ⟨⟨touch (touch sa t3 sb.addr) t4 sb.addr, touch (touch sb t1 sa.addr) t2 sa.addr, [], []⟩, ?_⟩
  simp only [List.nil_append, List.append_nil, List.cons_append] at s1 s2 s3 s4 s5
  simp only [nrun, s1, s2, s3, s4, s5, Option.map_some, List.nil_append, List.append_nil]

/-- Two devices after construction. -/
example : exampleNet.toA = [] ∧ exampleNet.toB = [] ∧ exampleNet.a.mask.testBit 6 = true ∧ exampleNet.a.mask.testBit 60 = false := by
  decide +kernel

/-- The subversion arrives without its upper byte: 0x1234 becomes 0x34. -/
theorem C69_subversion_violated :
    exampleNet.b.info.subversion = 0x1234 ∧
    (nrun exampleNet (courtship ++ [(2000000000, .hostA (.version 0)), (2000000000, .arriveB), (2000000000, .arriveA)])).map (fun r => r.2.1.getLast?) =
      some (some (.version 0 12 0xe0 0x34)) := by
  decide +kernel

/-- Not an event that tells a name. -/
def notName : Ev → Bool
  | .name _ _ => false
  | _ => true

/-- The request for the name of a device that is not there is accepted, but however long the host waits it is not
answered. -/
theorem C69_absent_violated (s : Ctl) (t0 x : Nat) (ts : List Nat) : ∃ s' l, run s ((t0, .cmd (.name x)) :: ts.map (fun t => (t, .tick))) = some (s', l) ∧
    (l.map Seen.status).head? = some 0 ∧ ∀ y ∈ l, ∀ e ∈ y.ev, notName e = true := by
  have go : ∀ (ts : List Nat) (s : Ctl), ∃ s' l, run s (ts.map (fun t => (t, .tick))) = some (s', l) ∧ ∀ y ∈ l, ∀ e ∈ y.ev, notName e = true := by
    intro ts
    induction ts with
    | nil => exact fun s => ⟨s, [], rfl, nofun⟩
    | cons t ts ih =>
      intro s
      obtain ⟨s', l, h1, h2⟩ := ih (inquiring (paging { s with later := [] } t).1 t).1
      refine ⟨s', ⟨t, .tick, 0, (sendRejects s).1 ++ (paging { s with later := [] } t).2.1 ++ (inquiring (paging { s with later := [] } t).1 t).2.1,
        (sendRejects s).2 ++ (paging { s with later := [] } t).2.2 ++ (inquiring (paging { s with later := [] } t).1 t).2.2⟩ :: l, ?_, ?_⟩
      · simp only [List.map_cons, run, step]
        rw [tick_eq]
        simp only [h1, Option.map_some]
      · intro y hy
        rcases List.mem_cons.1 hy with hy | hy
        · subst hy
          intro e he
          rcases List.mem_append.1 he with he | he
          · rcases List.mem_append.1 he with he | he
            · simp only [sendRejects, List.mem_flatMap] at he
              obtain ⟨r, _, h⟩ := he
              exact tell_all rfl e h
            · revert he
              unfold paging
              (repeat' split) <;> first
                | exact all_nil e
                | exact all_one rfl e
          · revert he
            unfold inquiring
            (repeat' split) <;> first
              | exact all_nil e
              | exact tell_all rfl e
        · exact h2 y hy
  obtain ⟨s', l, h1, h2⟩ := go ts s
  refine ⟨s', ⟨t0, .cmd (.name x), 0, [(x, .hostFeaturesReq), (x, .nameReq)], []⟩ :: l, ?_, rfl, ?_⟩
  · simp only [run, step, command, h1, Option.map_some]
    rfl
  · intro y hy
    rcases List.mem_cons.1 hy with hy | hy
    · subst hy
      exact nofun
    · exact h2 y hy

end Verif.Br
