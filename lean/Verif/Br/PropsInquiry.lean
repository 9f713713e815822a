import Verif.Br.InquiryLemmas
/-!
# C67: an inquiry finds the discoverable devices and ends once

C67: an inquiry is sent until its time is over or the host cancels it; the host is told once of its end. It reports
exactly the devices that are discoverable with its access code, with what they say about themselves, and not more of
them than the host asked for. -/
namespace Verif.Br

theorem inquiring_spec {s : Ctl} (hm : s.mask.testBit 0 = true) (now : Nat) : (inquiring s now).1.mask.testBit 0 = true ∧
    inqOf (inquiring s now).1 = asking (inqOf s) ⟨now, .tick, 0, [], []⟩ ∧
    inquiries (inquiring s now).2.1 = (match inqOf s with
      | some i => if i.next ≤ now ∧ now < i.deadline then [i.lap] else []
      | none => []) ∧
    (inquiring s now).2.2.count .inqComplete = (if (inqOf s).any (fun i => i.deadline ≤ now) = true then 1 else 0) := by
  have ht : ∀ e, tell s 1 e = [e] := fun e => if_pos hm
  cases hi : s.inq with
  | none =>
    have h5 : inquiring s now = (s, [], []) := by
      unfold inquiring
      rw [hi]
    rw [h5]
    refine ⟨hm, ?_, ?_, ?_⟩ <;> simp [inqOf, hi, asking, inquiries]
  | some i =>
    by_cases h6 : i.timeout ≤ now
    · have h5 : inquiring s now = ({ s with inq := none }, [], [.inqComplete]) := by
        unfold inquiring
        rw [hi]
        simp only [ge_iff_le, h6, if_true, ht]
      have h7 : ¬ now < i.timeout := by omega
      rw [h5]
      refine ⟨hm, ?_, ?_, ?_⟩ <;> simp [inqOf, hi, asking, inquiries, h6, h7]
    · have h7 : now < i.timeout := by omega
      by_cases h8 : i.next ≤ now
      · have h5 : inquiring s now = ({ s with inq := some { i with next := now + 2000000000 } }, [(0, .inquiry s.inqMode i.lap)], []) := by
          unfold inquiring
          rw [hi]
          simp only [ge_iff_le, h6, h8, if_true, if_false]
        rw [h5]
        refine ⟨hm, ?_, ?_, ?_⟩ <;> simp [inqOf, hi, asking, inquiries, h6, h7, h8]
      · have h5 : inquiring s now = (s, [], []) := by
          unfold inquiring
          rw [hi]
          simp only [ge_iff_le, h6, h8, if_false]
        rw [h5]
        refine ⟨hm, ?_, ?_, ?_⟩ <;> simp [inqOf, hi, asking, inquiries, h6, h8]

theorem step_inquires {s s' : Ctl} (hm : s.mask.testBit 0 = true) {now : Nat} {x : Act} (hx : hearsEnd x = true) {st : Status}
    {out : List (Nat × Pkt)} {ev : List Ev} (h : step s now x = .ok st s' out ev) :
    rightly (inqOf s) ⟨now, x, st, out, ev⟩ = true ∧ inqOf s' = asking (inqOf s) ⟨now, x, st, out, ev⟩ ∧ s'.mask.testBit 0 = true := by
  by_cases hq : inquisitive x = false
  · have h1 := step_mute s now x hq
    rw [h] at h1
    have h2 : inqOf s' = inqOf s := by
      unfold inqOf
      rw [h1.inq]
    have h3 := mute_inquiries h1.out
    have h4 := mute_count h1.ev
    refine ⟨?_, ?_, by rw [h1.mask]; exact hm⟩
    · cases x with
      | tick => cases hq
      | cmd c =>
        cases c <;> first
          | (simp [rightly, h3, h4]; done)
          | cases hq
      | _ => simp [rightly, h3, h4]
    · rw [h2]
      cases x with
      | tick => cases hq
      | cmd c =>
        cases c <;> first
          | rfl
          | cases hq
      | _ => rfl
  · cases x with
    | tick =>
      simp only [step] at h
      rw [tick_eq] at h
      obtain ⟨page, h4, -⟩ := paging_same { s with later := [] } now
      have hout1 : inquiries ((sendRejects s).1 ++ (paging { s with later := [] } now).2.1) = [] := by
        apply mute_inquiries
        intro o ho
        rcases List.mem_append.1 ho with ho | ho
        · simp only [sendRejects, List.mem_map] at ho
          obtain ⟨r, _, rfl⟩ := ho
          rfl
        · revert ho
          unfold paging
          (repeat' split) <;> first
            | exact all_nil o
            | exact all_one rfl o
      have hev1 : ((sendRejects s).2 ++ (paging { s with later := [] } now).2.2).count .inqComplete = 0 := by
        apply mute_count
        intro e he
        rcases List.mem_append.1 he with he | he
        · simp only [sendRejects, List.mem_flatMap] at he
          obtain ⟨r, _, h⟩ := he
          exact tell_all rfl e h
        · revert he
          unfold paging
          (repeat' split) <;> first
            | exact all_nil e
            | exact all_one rfl e
      cases h
      have hin : ∀ l : List (Nat × Pkt), inquiries ((sendRejects s).1 ++ (paging { s with later := [] } now).2.1 ++ l) = inquiries l := by
        intro l
        unfold inquiries at *
        rw [List.filterMap_append, hout1]
        rfl
      have hc : ∀ l : List Ev, ((sendRejects s).2 ++ (paging { s with later := [] } now).2.2 ++ l).count .inqComplete = l.count .inqComplete := by
        intro l
        rw [List.count_append, hev1, Nat.zero_add]
      obtain ⟨k1, k2, k3, k4⟩ := inquiring_spec (s := (paging { s with later := [] } now).1) (by rw [h4]; exact hm) now
      have k5 : inqOf (paging { s with later := [] } now).1 = inqOf s := by
        rw [h4]
        rfl
      rw [k5] at k2 k3 k4
      refine ⟨?_, ?_, k1⟩
      · simp only [rightly, hin, hc, k3, k4]
        cases inqOf s <;> simp
      · rw [k2]
        rfl
    | cmd c =>
      cases c with
      | inquiry lap n r =>
        simp only [step, command, startInquiry, refuse] at h
        split at h
        · rename_i h1
          cases h
          have h2 : ¬(1 ≤ n ∧ n ≤ 0x30 ∧ r ≤ 0xff) := by omega
          refine ⟨?_, rfl, hm⟩
          simp only [rightly, h2, decide_false, Bool.false_and]
          rfl
        · rename_i h1
          have h2 : 1 ≤ n ∧ n ≤ 0x30 ∧ r ≤ 0xff := by omega
          split at h
          · rename_i h3
            cases h
            refine ⟨?_, rfl, hm⟩
            obtain ⟨i, hi⟩ := Option.isSome_iff_exists.1 h3
            simp only [rightly, h2, inqOf, hi]
            rfl
          · rename_i h3
            cases h
            refine ⟨?_, rfl, hm⟩
            have hi : s.inq = none := by simpa using h3
            simp only [rightly, h2, inqOf, hi]
            rfl
      | inquiryCancel =>
        simp only [step, command, cancelInquiry, refuse] at h
        split at h
        · rename_i h3
          cases h
          have hi : s.inq = none := by simpa using h3
          refine ⟨?_, rfl, hm⟩
          simp only [rightly, inqOf, hi]
          rfl
        · rename_i h3
          cases h
          refine ⟨?_, rfl, hm⟩
          cases hi : s.inq with
          | none => simp [hi] at h3
          | some i =>
            simp only [rightly, inqOf, hi]
            rfl
      | reset =>
        cases h
        refine ⟨?_, rfl, show Nat.testBit 0x00001fffffffffff 0 = true by decide⟩
        have h1 : inquiries (s.sco.map (fun e => (e.2.addr, Pkt.scoDisc Status.remoteUserTerminated)) ++
            s.acl.map (fun e => (e.2.addr, Pkt.disconnect Status.remoteUserTerminated))) = [] := by
          apply mute_inquiries
          intro o ho
          rcases List.mem_append.1 ho with ho | ho <;> obtain ⟨e, -, rfl⟩ := List.mem_map.1 ho <;> rfl
        simp [rightly, h1]
      | setMask m =>
        cases h
        exact ⟨rfl, rfl, hx⟩
      | _ => exact absurd rfl hq
    | _ => exact absurd rfl hq

/-- In every history in which the host does not mask the event, inquiries are accepted, cancelled, sent and ended as
they should be. -/
theorem C67_history (addr : Nat) (i : Info) (k : Nat) (as : List (Nat × Act)) (hx : ∀ x ∈ as, hearsEnd x.2 = true) (s : Ctl) (l : List Seen)
    (h : run (Ctl.fresh addr i k) as = some (s, l)) : inquires none l = true := by
  have go : ∀ (as : List (Nat × Act)) (s0 : Ctl), s0.mask.testBit 0 = true → (∀ x ∈ as, hearsEnd x.2 = true) → ∀ s l, run s0 as = some (s, l) →
      inquires (inqOf s0) l = true := by
    intro as
    induction as with
    | nil =>
      intro s0 _ _ s l h
      cases h
      rfl
    | cons x as ih =>
      intro s0 hm hx s l h
      obtain ⟨now, x⟩ := x
      simp only [run] at h
      split at h
      · rename_i st s1 out ev hs
        rw [Option.map_eq_some_iff] at h
        obtain ⟨⟨s2, l2⟩, h1, h2⟩ := h
        cases h2
        obtain ⟨h3, h4, h5⟩ := step_inquires hm (hx _ List.mem_cons_self) hs
        simp only [inquires, Bool.and_eq_true]
        refine ⟨h3, ?_⟩
        rw [← h4]
        exact ih s1 h5 (fun x h => hx x (List.mem_cons_of_mem _ h)) _ _ h1
      · cases h
  exact go as _ (show Nat.testBit 0x00001fffffffffff 0 = true by decide) hx s l h

/-- An inquiry of 5.12 s: sent twice, refused while it is going on, ended once; then another one, cancelled. -/
example : (run exampleA [(0, .cmd (.inquiry 0x9e8b33 4 0)), (1000000000, .tick), (2000000000, .tick), (3000000000, .cmd (.inquiry 0x9e8b33 4 0)), (4000000000, .tick),
    (5200000000, .tick), (5300000000, .tick), (6000000000, .cmd (.inquiry 0x9e8b33 4 0)), (7000000000, .cmd .inquiryCancel), (9000000000, .tick)]).map
    (fun r => r.2.map (fun x => (x.status, inquiries x.out, x.ev.length))) =
    some [(0, [], 0), (0, [], 0), (0, [0x9e8b33], 0), (0x0c, [], 0), (0, [0x9e8b33], 0), (0, [], 1), (0, [], 0), (0, [], 0), (0, [], 0), (0, [], 0)] := by
  decide +kernel

/-! ## Finding a device -/

/-- A's inquiry reaches B. If B is discoverable with its access code, and A's host hears the results, it is told B's
address and class of device and, in the extended mode, B's extended inquiry response; otherwise nothing. Missing: that
the number of results is limited as the host asked for, which is false, see below. -/
theorem C67_found_partial (n : Net) (hq : n.toA = [] ∧ n.toB = []) (hp : n.a.page = none ∧ n.a.later = [] ∧ n.a.inq = none) (hmode : n.a.inqMode ≤ 2)
    (t0 t1 t2 t3 lap len r : Nat) (hlen : 1 ≤ len ∧ len ≤ 0x30 ∧ r ≤ 0xff) (ht : t0 + 2000000000 ≤ t1 ∧ t1 < t0 + len * 1280000000) :
    ∃ n' ea rssi, nrun n [(t0, .hostA (.inquiry lap len r)), (t1, .tickA), (t2, .arriveB), (t3, .arriveA)] = some (n', ea, []) ∧
      (discoverable n.b lap ∧ hearsResults n.a n.a.inqMode = true →
        ea = [.inqResult n.a.inqMode n.b.addr n.b.info.cod rssi (if n.a.inqMode = 2 then n.b.info.eir else [])]) ∧
      (¬(discoverable n.b lap ∧ hearsResults n.a n.a.inqMode = true) → ea = []) := by
  obtain ⟨a, b, toA, toB⟩ := n
  simp only at *
  obtain ⟨rfl, rfl⟩ := hq
  obtain ⟨hp, hl, hi⟩ := hp
  have e1 : command a t0 (.inquiry lap len r) = .ok 0 { a with inq := some ⟨lap, r, t0 + 2000000000, t0 + len * 1280000000⟩ } [] [] := by
    simp only [command, startInquiry]
    rw [if_neg (by omega), if_neg (by simp [hi])]
    rfl
  have e2 : nstep ⟨{ a with inq := some ⟨lap, r, t0 + 2000000000, t0 + len * 1280000000⟩ }, b, [], []⟩ t1 .tickA =
      some (⟨{ a with later := [], inq := some ⟨lap, r, t1 + 2000000000, t0 + len * 1280000000⟩ }, b, [], [(0, .inquiry a.inqMode lap)]⟩, [], []) := by
    have h3 : ¬ t0 + len * 1280000000 ≤ t1 := by omega
    simp [nstep, tick, sendRejects, paging, inquiring, hl, hp, h3, ht.1, putA]
  have tchB : (touch b t2 a.addr).inqScan = b.inqScan ∧ (touch b t2 a.addr).iac = b.iac ∧ (touch b t2 a.addr).info = b.info ∧
      (touch b t2 a.addr).addr = b.addr := by
    unfold touch
    split <;> exact ⟨rfl, rfl, rfl, rfl⟩
  have e3 : ∃ out, incoming b t2 a.addr 0 0 (.inquiry a.inqMode lap) = .ok 0 (touch b t2 a.addr) out [] ∧
      ((discoverable b lap ∧ out = [(a.addr, .inqRsp a.inqMode b.info.cod 0 (if a.inqMode = 2 then b.info.eir else []))]) ∨ (¬discoverable b lap ∧ out = [])) := by
    simp only [incoming, dispatch, onInquiry, tchB.1, tchB.2.1, tchB.2.2.1]
    rw [if_neg (by simp)]
    by_cases h1 : b.inqScan = false
    · rw [if_pos h1]
      exact ⟨_, rfl, .inr ⟨(fun h => by simp [discoverable, h1] at h), rfl⟩⟩
    · rw [if_neg h1]
      by_cases h2 : lap ∉ b.iac
      · rw [if_pos h2]
        exact ⟨_, rfl, .inr ⟨(fun h => h2 h.2), rfl⟩⟩
      · rw [if_neg h2]
        have hd : discoverable b lap := ⟨by simpa using h1, by simpa using h2⟩
        have hmode' : a.inqMode = 0 ∨ a.inqMode = 1 ∨ a.inqMode = 2 := by omega
        rcases hmode' with h3 | h3 | h3 <;> rw [h3]
        · exact ⟨_, rfl, .inl ⟨hd, rfl⟩⟩
        · exact ⟨_, rfl, .inl ⟨hd, rfl⟩⟩
        · exact ⟨_, rfl, .inl ⟨hd, rfl⟩⟩
  obtain ⟨out, e3, hout⟩ := e3
  rcases hout with ⟨hd, rfl⟩ | ⟨hd, rfl⟩
  · have e4 : ∃ s' ev, incoming { a with later := [], inq := some ⟨lap, r, t1 + 2000000000, t0 + len * 1280000000⟩ } t3 b.addr a.addr 0
        (.inqRsp a.inqMode b.info.cod 0 (if a.inqMode = 2 then b.info.eir else [])) = .ok 0 s' [] ev ∧
        ev = (if hearsResults a a.inqMode = true then [.inqResult a.inqMode b.addr b.info.cod 0 (if a.inqMode = 2 then b.info.eir else [])] else []) := by
      have hmk : ∀ (s : Ctl) (t y : Nat), (touch s t y).mask = s.mask := by
        intro s t y
        unfold touch
        split <;> rfl
      simp only [incoming, dispatch, onInqRsp]
      rw [if_neg (by simp)]
      have hmode' : a.inqMode = 0 ∨ a.inqMode = 1 ∨ a.inqMode = 2 := by omega
      rcases hmode' with h3 | h3 | h3 <;> rw [h3]
      · refine ⟨_, _, rfl, ?_⟩
        simp only [tell, unmasked, hmk]
        rfl
      · refine ⟨_, _, rfl, ?_⟩
        simp only [tell, unmasked, hmk]
        rfl
      · exact ⟨_, _, rfl, rfl⟩
    obtain ⟨s', ev, e4, hev⟩ := e4
    refine ⟨⟨s', touch b t2 a.addr, [], []⟩, ev, 0, ?_, ?_, ?_⟩
    · have := nrun_four (hostA_step (toA := []) (toB := []) (sb := b) e1) e2
        (arriveB_step (toA := []) (toB := []) (sa := { a with later := [], inq := some ⟨lap, r, t1 + 2000000000, t0 + len * 1280000000⟩ }) rfl e3)
        (arriveA_step (toA := []) (toB := []) tchB.2.2.2 e4)
      simpa using this
    · intro h
      rw [hev, if_pos h.2]
    · intro h
      rw [hev, if_neg]
      exact fun h2 => h ⟨hd, h2⟩
  · refine ⟨⟨{ a with later := [], inq := some ⟨lap, r, t1 + 2000000000, t0 + len * 1280000000⟩ }, touch b t2 a.addr, [], []⟩, [], 0, ?_, fun h => absurd h.1 hd, fun _ => rfl⟩
    exact nrun_four (hostA_step (toA := []) (toB := []) (sb := b) e1) e2
        (arriveB_step (toA := []) (toB := []) (sa := { a with later := [], inq := some ⟨lap, r, t1 + 2000000000, t0 + len * 1280000000⟩ }) rfl e3) (show nstep _ t3 .arriveA = some (_, [], []) from rfl)

/-- A discoverable device is found. -/
example : (nrun exampleNet [(0, .hostB (.writeIac [0x9e8b33])), (0, .hostB (.writeScanEnable true false)), (0, .hostA (.writeInquiryMode 1)), (0, .hostA (.inquiry 0x9e8b33 4 0)),
    (2000000000, .tickA), (2000000001, .arriveB), (2000000002, .arriveA)]).map (fun r => r.2.1) = some [.inqResult 1 0xB 0x5a020c 0 []] := by
  decide +kernel

/-- The limit of the number of results has no effect. -/
theorem C67_limit_violated :
    (run exampleA [(0, .cmd (.inquiry 0x9e8b33 4 1)), (2000000000, .tick), (2000000001, .packet 0xB 0xA 0 (.inqRsp 0 1 0 [])),
      (2000000002, .packet 0xC 0xA 0 (.inqRsp 0 2 0 [])), (3000000000, .tick)]).map (fun r => r.2.flatMap Seen.ev) =
      some [.inqResult 0 0xB 1 0 [], .inqResult 0 0xC 2 0 []] := by
  decide +kernel

/-- A device is reported although there is no inquiry, and a device that was found is found again. -/
theorem C67_unasked_violated :
    (run exampleA [(0, .packet 0xB 0xA 0 (.inqRsp 0 1 0 [])), (1, .packet 0xB 0xA 0 (.inqRsp 0 1 0 []))]).map (fun r => r.2.flatMap Seen.ev) =
      some [.inqResult 0 0xB 1 0 [], .inqResult 0 0xB 1 0 []] := by
  decide +kernel

/-- An extended result is not masked. -/
theorem C67_mask_violated :
    (run exampleA [(0, .cmd (.setMask 0)), (1, .packet 0xB 0xA 0 (.inqRsp 2 1 0 [])), (2, .packet 0xB 0xA 0 (.inqRsp 1 1 0 []))]).map (fun r => r.2.flatMap Seen.ev) =
      some [.inqResult 2 0xB 1 0 []] := by
  decide +kernel

/-- An inquiry of the shortest length is never sent: whatever the times of the ticks, it ends before. -/
theorem C67_short_violated (s : Ctl) (hi : s.inq = none) (t0 lap r : Nat) (hr : r ≤ 0xff) (ts : List Nat) (s' : Ctl) (l : List Seen)
    (h : run s ((t0, .cmd (.inquiry lap 1 r)) :: ts.map (fun t => (t, .tick))) = some (s', l)) :
    ∀ x ∈ l, inquiries x.out = [] := by
  have tk : ∀ (s : Ctl) (t : Nat), (∀ i, s.inq = some i → i.timeout < i.next) → ∃ s' out ev, step s t .tick = .ok 0 s' out ev ∧
      inquiries out = [] ∧ (∀ i, s'.inq = some i → i.timeout < i.next) := by
    intro s t hi
    obtain ⟨page, h4, -⟩ := paging_same { s with later := [] } t
    refine ⟨_, _, _, tick_eq s t, ?_, ?_⟩
    · apply mute_inquiries
      intro o ho
      rcases List.mem_append.1 ho with ho | ho
      · rcases List.mem_append.1 ho with ho | ho
        · simp only [sendRejects, List.mem_map] at ho
          obtain ⟨r, _, rfl⟩ := ho
          rfl
        · revert ho
          unfold paging
          (repeat' split) <;> first
            | exact all_nil o
            | exact all_one rfl o
      · rw [h4] at ho
        revert ho
        unfold inquiring
        split
        · exact all_nil o
        · rename_i i h5
          have := hi i h5
          split
          · exact all_nil o
          · rw [if_neg (by omega)]
            exact all_nil o
    · intro i h5
      rw [h4] at h5
      revert h5
      unfold inquiring
      split
      · rename_i h6
        intro h5
        rw [h6] at h5
        cases h5
      · rename_i j h6
        have := hi j h6
        split
        · exact fun h5 => by cases h5
        · rw [if_neg (by omega)]
          intro h5
          exact hi i h5
  have go : ∀ (ts : List Nat) (s : Ctl), (∀ i, s.inq = some i → i.timeout < i.next) → ∀ s' l, run s (ts.map (fun t => (t, .tick))) = some (s', l) →
      ∀ x ∈ l, inquiries x.out = [] := by
    intro ts
    induction ts with
    | nil =>
      intro s _ s' l h
      cases h
      exact nofun
    | cons t ts ih =>
      intro s hi s' l h
      obtain ⟨s1, out, ev, h1, h2, h3⟩ := tk s t hi
      simp only [List.map_cons, run, h1] at h
      rw [Option.map_eq_some_iff] at h
      obtain ⟨⟨s2, l2⟩, h4, h5⟩ := h
      cases h5
      intro x hx
      rcases List.mem_cons.1 hx with hx | hx
      · rw [hx]
        exact h2
      · exact ih s1 h3 _ _ h4 x hx
  have e1 : step s t0 (.cmd (.inquiry lap 1 r)) = .ok 0 { s with inq := some ⟨lap, r, t0 + 2000000000, t0 + 1 * 1280000000⟩ } [] [] := by
    simp only [step, command, startInquiry]
    rw [if_neg (by omega), if_neg (by simp [hi])]
    rfl
  simp only [run, e1] at h
  rw [Option.map_eq_some_iff] at h
  obtain ⟨⟨s2, l2⟩, h4, h5⟩ := h
  cases h5
  intro x hx
  rcases List.mem_cons.1 hx with hx | hx
  · rw [hx]
    rfl
  · refine go ts _ ?_ _ _ h4 x hx
    intro i h6
    injection h6 with h6
    rw [← h6]
    show t0 + 1 * 1280000000 < t0 + 2000000000
    omega

/-- It was accepted. -/
example : (run exampleA [(0, .cmd (.inquiry 0x9e8b33 1 0)), (1000000000, .tick), (1270000000, .tick), (2000000000, .tick)]).map
    (fun r => r.2.map (fun x => (x.status, x.out.length, x.ev))) = some [(0, 0, []), (0, 0, []), (0, 0, []), (0, 0, [.inqComplete])] := by
  decide +kernel

end Verif.Br
