import Verif.Br.PageLemmas
import Verif.Br.PropsFail
/-!
# C62: every connection attempt is answered once; C63: who answers a request can be connected again

C62: after an accepted Create Connection the host gets exactly one Connection Complete event for the attempt, at
the latest at the page timeout; there is no such event without an attempt, except for connections the host accepts;
and the device is paged.

C63: when a device with page scan on is paged by a device it is not connected with, its host is told of the request;
and once the host has accepted or rejected the request, the next page leads to a new one. -/
namespace Verif.Br

/-! ## C62 -/

/-- In every history in which the host does not mask the Connection Complete event, every attempt is answered at
most once, nothing else is answered, and the attempt is over for the host exactly when it is over for the
controller. -/
theorem C62_exactly_once (addr : Nat) (i : Info) (n : Nat) (as : List (Nat × Act)) (hx : ∀ x ∈ as, Named x.2)
    (hh : ∀ x ∈ as, hears x.2 = true) (s : Ctl) (l : List Seen) (h : run (Ctl.fresh addr i n) as = some (s, l)) :
    follow none l = some (s.page.map Page.addr) := by
  have go : ∀ (as : List (Nat × Act)) (t : Ctl) (l : List Seen), Inv t → t.mask.testBit 2 = true → (∀ x ∈ as, Named x.2) →
      (∀ x ∈ as, hears x.2 = true) → run t as = some (s, l) → follow (t.page.map Page.addr) l = some (s.page.map Page.addr) := by
    intro as
    induction as with
    | nil =>
      intro t l _ _ _ _ h
      cases h
      rfl
    | cons x as ih =>
      intro t l hi hm hx hh h
      obtain ⟨now, a⟩ := x
      have h1 := fits hi now a (hx _ List.mem_cons_self)
      have h2 := step_follows hi hm now a (hx _ List.mem_cons_self) (hh _ List.mem_cons_self)
      simp only [run] at h
      split at h
      · rename_i st s1 out ev hs
        rw [hs] at h1 h2
        rw [Option.map_eq_some_iff] at h
        obtain ⟨⟨s2, l2⟩, h3, h4⟩ := h
        cases h4
        have h5 := ih s1 l2 h1.1 h2.2 (fun x hx' => hx x (List.mem_cons_of_mem _ hx'))
          (fun x hx' => hh x (List.mem_cons_of_mem _ hx')) h3
        simp only [follow]
        rw [h2.1, Option.bind_some]
        exact h5
      · cases h
  exact go as (Ctl.fresh addr i n) l (fresh_inv addr i n) (show Nat.testBit 0x00001fffffffffff 2 = true by decide) hx hh h

/-- Two attempts: one ends in a connection, the other at the page timeout. -/
example : (run exampleA (connectB ++ [(2000000000, .cmd (.create 0xC true)), (8000000000, .tick)])).map
    (fun r => (follow none r.2, r.2.flatMap Seen.ev)) =
    some (some none, [.connComplete 0 0 0xB .acl, .connComplete 4 0 0xC .acl]) := by
  decide +kernel

/-- Whatever happens after an accepted Create Connection, the attempt is over after the first tick at or after the
page timeout (counted in slots of 625 µs). -/
theorem C62_timeout (s : Ctl) (t a : Nat) (w : Bool) (s1 : Ctl) (out : List (Nat × Pkt)) (ev : List Ev)
    (hc : step s t (.cmd (.create a w)) = .ok 0 s1 out ev) (as : List (Nat × Act))
    (hx : ∀ x ∈ as, ∀ b v, x.2 ≠ .cmd (.create b v)) (s2 : Ctl) (l : List Seen) (h : run s1 as = some (s2, l))
    (ht : ∃ now, (now, Act.tick) ∈ as ∧ t + s.pageTimeout * 625000 ≤ now) : s2.page = none := by
  have go : ∀ (as : List (Nat × Act)) (u : Ctl) (l : List Seen), (∀ x ∈ as, ∀ b v, x.2 ≠ .cmd (.create b v)) →
      run u as = some (s2, l) → (∀ p, u.page = some p → p.timeout = t + s.pageTimeout * 625000) →
      (u.page = none ∨ ∃ now, (now, Act.tick) ∈ as ∧ t + s.pageTimeout * 625000 ≤ now) → s2.page = none := by
    intro as
    induction as with
    | nil =>
      intro u l _ h _ h1
      cases h
      rcases h1 with h1 | ⟨now, h1, _⟩
      · exact h1
      · cases h1
    | cons x as ih =>
      intro u l hx h hp h1
      obtain ⟨now, x⟩ := x
      simp only [run] at h
      split at h
      · rename_i st u1 out ev hs
        rw [Option.map_eq_some_iff] at h
        obtain ⟨⟨s3, l2⟩, h3, h4⟩ := h
        cases h4
        have hpg := step_page (hx _ List.mem_cons_self) hs
        refine ih u1 l2 (fun x hx' => hx x (List.mem_cons_of_mem _ hx')) h3 ?_ ?_
        · intro p hp1
          rcases hpg with h5 | ⟨q, r, h5, h6, h7, h8, _⟩
          · rw [h5] at hp1
            cases hp1
          · rw [h6] at hp1
            cases hp1
            rw [h8]
            exact hp q h5
        · rcases hpg with h5 | ⟨q, r, h5, h6, h7, h8, h9, h10, h11⟩
          · exact .inl h5
          · right
            rcases h1 with h1 | ⟨k, h1, h2⟩
            · rw [h1] at h5
              cases h5
            · rcases List.mem_cons.1 h1 with h12 | h12
              · cases h12
                have := h11 rfl
                have := hp q h5
                omega
              · exact ⟨k, h12, h2⟩
      · cases h
  refine go as s1 l hx h ?_ (.inr ht)
  intro p hp
  simp only [step, command, createConnection, refuse] at hc
  (repeat' split at hc) <;> cases hc
  cases hp
  rfl

/-- An attempt, its pages and its end five seconds later. -/
example : (run exampleA [(0, .cmd (.create 0xB true)), (1000000000, .tick), (5000000000, .tick), (5120000000, .tick)]).map
    (fun r => (r.1.page.isSome, r.2.map Seen.out)) =
    some (false, [[], [(0xB, .page 0x5a020c true)], [(0xB, .page 0x5a020c true)], []]) := by
  decide +kernel

/-- Page timeout events do not come early: an attempt that ends in a tick ends at or after its timeout. -/
theorem C62_not_early (s : Ctl) (now st h a : Nat) (s' : Ctl) (out : List (Nat × Pkt)) (ev : List Ev)
    (hs : step s now .tick = .ok 0 s' out ev) (he : .connComplete st h a .acl ∈ ev) (hh : h ≠ 0xeff) :
    st = 4 ∧ ∃ p, s.page = some p ∧ p.addr = a ∧ p.timeout ≤ now := by
  simp only [step] at hs
  rw [tick_eq] at hs
  cases hs
  rcases List.mem_append.1 he with he | he
  · rcases List.mem_append.1 he with he | he
    · exact absurd (sendRejects_silent s _ he st h a rfl) hh
    · unfold paging at he
      split at he
      · cases he
      · rename_i p hp
        split at he
        · rename_i h1
          rw [List.mem_singleton] at he
          cases he
          exact ⟨rfl, p, hp, rfl, h1⟩
        · split at he <;> cases he
  · unfold inquiring at he
    split at he
    · cases he
    · split at he
      · exact absurd (silent_tell (e := .inqComplete) nofun _ he st h a rfl) hh
      · split at he <;> cases he

/-- A page timeout of at most one second, in whatever history, ends without a single page: the attempt cannot
succeed. -/
theorem C62_short_timeout_violated (s : Ctl) (t a : Nat) (w : Bool) (s1 : Ctl) (out : List (Nat × Pkt)) (ev : List Ev)
    (hshort : s.pageTimeout ≤ 1600)
    (hc : step s t (.cmd (.create a w)) = .ok 0 s1 out ev) (as : List (Nat × Act))
    (hx : ∀ x ∈ as, ∀ b v, x.2 ≠ .cmd (.create b v)) (s2 : Ctl) (l : List Seen) (h : run s1 as = some (s2, l)) :
    ∀ x ∈ l, ∀ d cod v, (d, .page cod v) ∉ x.out := by
  have go : ∀ (as : List (Nat × Act)) (u : Ctl) (l : List Seen), (∀ x ∈ as, ∀ b v, x.2 ≠ .cmd (.create b v)) →
      run u as = some (s2, l) → (∀ p, u.page = some p → p.timeout ≤ p.next) → ∀ x ∈ l, ∀ d cod v, (d, .page cod v) ∉ x.out := by
    intro as
    induction as with
    | nil =>
      intro u l _ h _
      cases h
      exact nofun
    | cons x as ih =>
      intro u l hx h hp
      obtain ⟨now, x⟩ := x
      simp only [run] at h
      split at h
      · rename_i st u1 out ev hs
        rw [Option.map_eq_some_iff] at h
        obtain ⟨⟨s3, l2⟩, h3, h4⟩ := h
        cases h4
        have hpg := step_page (hx _ List.mem_cons_self) hs
        have h5 := ih u1 l2 (fun x hx' => hx x (List.mem_cons_of_mem _ hx')) h3 (by
          intro p hp1
          rcases hpg with h5 | ⟨q, r, h5, h6, h7, h8, _, h9, _⟩
          · rw [h5] at hp1
            cases hp1
          · rw [h6] at hp1
            cases hp1
            have := hp q h5
            omega)
        intro y hy d cod v ho
        rcases List.mem_cons.1 hy with h6 | h6
        · subst h6
          obtain ⟨p, k1, k2, k3, k4, k5⟩ := step_out hs ho
          have := hp p k1
          omega
        · exact h5 y h6 d cod v ho
      · cases h
  refine go as s1 l hx h ?_
  intro p hp
  simp only [step, command, createConnection, refuse] at hc
  (repeat' split at hc) <;> cases hc
  cases hp
  simp only []
  omega

/-- Half a second. -/
example : (run exampleA [(0, .cmd (.writePageTimeout 800)), (0, .cmd (.create 0xB true)), (400000000, .tick), (500000000, .tick)]).map
    (fun r => r.2.map (fun x => (x.out, x.ev))) = some [([], []), ([], []), ([], []), ([], [.connComplete 4 0 0xB .acl])] := by
  decide +kernel

/-- A rejection with reason 0 is reported as a connection, which does not exist. -/
theorem C62_reason_violated (s : Ctl) (now src rssi : Nat) (p : Page) (hp : s.page = some p) (ha : p.addr = src)
    (hm : s.mask.testBit 2 = true) (hn : src ∉ peers s) :
    ∃ s', step s now (.packet src s.addr rssi (.pageReject 0)) = .ok 0 s' [] [.connComplete 0 0 src .acl] ∧ src ∉ peers s' := by
  have h1 : touch s now src = s := by
    unfold touch
    rw [aclOf_none.2 hn]
  refine ⟨{ s with page := none }, ?_, hn⟩
  have h2 : unmasked s 3 = true := hm
  simp [step, incoming, h1, dispatch, onPageReject, hp, ha, tell, h2]

/-! ## C63 -/

/-- A page reaches the host exactly if page scan is on, the Connection Request event is not masked, there is no
connection with the sender and no request waits for an answer; then it waits for one. -/
theorem C63_request (s : Ctl) (now src rssi cod : Nat) (w : Bool) :
    ∃ s' out ev, step s now (.packet src s.addr rssi (.page cod w)) = .ok 0 s' out ev ∧
      (s.pageScan = true ∧ s.mask.testBit 3 = true ∧ src ∉ peers s ∧ s.scan = none →
        ev = [.connRequest src cod .acl] ∧ s'.scan = some ⟨src, w⟩) ∧
      (¬(s.pageScan = true ∧ s.mask.testBit 3 = true ∧ src ∉ peers s ∧ s.scan = none) → ev = [] ∧ s'.scan = s.scan) := by
  have h3 := touch_eq s now src
  have hscan : (touch s now src).scan = s.scan := by rw [h3]
  have hps : (touch s now src).pageScan = s.pageScan := by rw [h3]
  have hmk : unmasked (touch s now src) 4 = s.mask.testBit 3 := by
    unfold unmasked
    rw [h3]
  have hacl : (aclOf (touch s now src) src).isSome = (aclOf s src).isSome := by
    unfold touch
    cases h : aclOf s src with
    | none => simp only [h]
    | some e =>
      obtain ⟨k, c⟩ := e
      obtain ⟨h4, h5⟩ := aclOf_some h
      have : src ∈ peers { s with acl := update s.acl k { c with last := now } } := by
        refine List.mem_map.2 ⟨(k, { c with last := now }), ?_, h5⟩
        exact List.mem_map.2 ⟨(k, c), h4, by simp⟩
      rw [aclOf_isSome.2 this]
      rfl
  have hiff := @aclOf_isSome s src
  simp only [step, incoming, dispatch, onPage, hscan, hps, hmk, hacl]
  rw [if_neg (by simp)]
  cases hp : s.pageScan with
  | false => exact ⟨_, _, _, rfl, (fun h => nomatch h.1), fun _ => ⟨rfl, hscan⟩⟩
  | true =>
    cases hb : s.mask.testBit 3 with
    | false => exact ⟨_, _, _, rfl, (fun h => nomatch h.2.1), fun _ => ⟨rfl, hscan⟩⟩
    | true =>
      simp only [Bool.true_eq_false, if_false]
      by_cases ha : (aclOf s src).isSome = true
      · rw [if_pos ha]
        exact ⟨_, _, _, rfl, fun h => absurd (hiff.1 ha) h.2.2.1, fun _ => ⟨rfl, hscan⟩⟩
      · rw [if_neg ha]
        cases hsc : s.scan with
        | some q => exact ⟨_, _, _, rfl, (fun h => nomatch h.2.2.2), fun _ => ⟨rfl, hscan.trans hsc⟩⟩
        | none => exact ⟨_, _, _, rfl, fun _ => ⟨rfl, rfl⟩, fun h => absurd ⟨trivial, trivial, fun h => ha (hiff.2 h), rfl⟩ h⟩

/-- A device that is scanning is paged. -/
example : (run exampleA [(0, .cmd (.writeScanEnable true true)), (1, .packet 0xB 0xA 0 (.page 0x200404 true))]).map
    (fun r => r.2.flatMap Seen.ev) = some [.connRequest 0xB 0x200404 .acl] := by
  decide +kernel

/-- Accepting a request connects the device, tells both the host and the peer, and ends the request. -/
theorem C63_accept (s : Ctl) (hi : Inv s) (now : Nat) (q : Scan) (hq : s.scan = some q) (hn : q.addr ∉ peers s)
    (h7 : s.acl.length < 7) (hm : s.mask.testBit 2 = true) (t : Bool) :
    ∃ s' ev k, step s now (.cmd (.accept q.addr t)) = .ok 0 s' [(q.addr, .pageRsp t)] (ev ++ [.connComplete 0 k q.addr .acl]) ∧
      s'.scan = none ∧ (∃ c, (k, c) ∈ s'.acl ∧ c.addr = q.addr) ∧ (∀ c, (k, c) ∉ s.acl) ∧
      roleWith s' q.addr = some (if t && q.allow then .central else .peripheral) := by
  have h0 := hi.scan q hq
  have hc : ¬ (aclOf s q.addr).isSome = true := fun h => hn (aclOf_isSome.1 h)
  rcases connect_ok hi (now := now) (role := acceptorRole t q.allow) hn h0 with ⟨h, last, h1, h2, h3, h4, h5⟩ | ⟨h1, h2⟩
  · simp only [step, command, acceptConnection, hq, Option.filter, decide_true, if_true, acceptPage]
    rw [if_neg hc, h1]
    simp only [unmasked_cc hm]
    refine ⟨_, _, h, rfl, rfl, ⟨_, List.mem_cons_self, rfl⟩, ?_, ?_⟩
    · intro c hc
      exact h2 (Conn.mem_keys hc)
    · simp [roleWith, acceptorRole]
  · omega

/-- A request that waits. -/
example : (run exampleA [(0, .cmd (.writeScanEnable true true)), (1, .packet 0xB 0xA 0 (.page 0 true)), (2, .cmd (.accept 0xB true))]).map
    (fun r => (roleWith r.1 0xB, r.2.map Seen.ev)) =
    some (some .central, [[], [.connRequest 0xB 0 .acl], [.roleChange 0 0xB .central, .connComplete 0 0 0xB .acl]]) := by
  decide +kernel

/-- While a request waits for an answer, whatever happens except Reset and accepting it, there is no other request,
from any device. -/
theorem C63_one_at_a_time (s : Ctl) (q : Scan) (hq : s.scan = some q) (as : List (Nat × Act))
    (hx : ∀ x ∈ as, x.2 ≠ .cmd .reset ∧ ∀ t, x.2 ≠ .cmd (.accept q.addr t)) (s' : Ctl) (l : List Seen)
    (h : run s as = some (s', l)) : s'.scan = some q ∧ ∀ x ∈ l, ∀ a cod, Ev.connRequest a cod .acl ∉ x.ev := by
  induction as generalizing s l with
  | nil =>
    cases h
    exact ⟨hq, nofun⟩
  | cons x as ih =>
    obtain ⟨now, x⟩ := x
    simp only [run] at h
    split at h
    · rename_i st u1 out ev hs
      rw [Option.map_eq_some_iff] at h
      obtain ⟨⟨s3, l2⟩, h3, h4⟩ := h
      cases h4
      obtain ⟨h5, h6⟩ := hx _ List.mem_cons_self
      obtain ⟨h7, h8⟩ := step_scan hs hq h5 h6
      obtain ⟨h9, h10⟩ := ih u1 h7 (fun x hx' => hx x (List.mem_cons_of_mem _ hx')) l2 h3
      refine ⟨h9, ?_⟩
      intro y hy a cod he
      rcases List.mem_cons.1 hy with h11 | h11
      · subst h11
        exact nomatch h8 _ he
      · exact h10 y h11 a cod he
    · cases h

/-- Rejecting a request does not end it: whatever happens afterwards except Reset and accepting the rejected request,
the device is never connected by anyone again: there are no requests, from any device. -/
theorem C63_reject_violated (s : Ctl) (now a reason : Nat) (s1 : Ctl) (out : List (Nat × Pkt)) (ev : List Ev)
    (hr : step s now (.cmd (.reject a reason)) = .ok 0 s1 out ev) (as : List (Nat × Act))
    (hx : ∀ x ∈ as, x.2 ≠ .cmd .reset ∧ ∀ t, x.2 ≠ .cmd (.accept a t)) (s' : Ctl) (l : List Seen)
    (h : run s1 as = some (s', l)) : ∀ x ∈ l, ∀ b cod, Ev.connRequest b cod .acl ∉ x.ev := by
  simp only [step, command, rejectConnection, refuse] at hr
  split at hr
  · rename_i h1
    cases hr
    obtain ⟨q, h2, h3⟩ := scan_any.1 h1
    refine (C63_one_at_a_time { s with later := s.later ++ [(a, reason)] } q h2 as ?_ s' l h).2
    rw [h3]
    exact hx
  · cases hr

/-- A request is rejected, ten seconds later another device pages. -/
example : (run exampleA [(0, .cmd (.writeScanEnable true true)), (1, .packet 0xB 0xA 0 (.page 0 true)), (2, .cmd (.reject 0xB 0x0d)),
    (3, .tick), (10000000000, .packet 0xC 0xA 0 (.page 0 true))]).map (fun r => r.2.map (fun x => (x.out, x.ev))) =
    some [([], []), ([], [.connRequest 0xB 0 .acl]), ([], []), ([(0xB, .pageReject 0x0d)], [.connComplete 0x0d 0xeff 0xB .acl]), ([], [])] := by
  decide +kernel

/-- And the host cannot connect to the device it rejected: as long as the request is not accepted and there was no
Reset, Create Connection is refused. -/
theorem C63_reject_create_violated (s : Ctl) (now a reason : Nat) (s1 : Ctl) (out : List (Nat × Pkt)) (ev : List Ev)
    (hr : step s now (.cmd (.reject a reason)) = .ok 0 s1 out ev) (as : List (Nat × Act))
    (hx : ∀ x ∈ as, x.2 ≠ .cmd .reset ∧ ∀ t, x.2 ≠ .cmd (.accept a t)) (s' : Ctl) (l : List Seen)
    (h : run s1 as = some (s', l)) (t : Nat) (w : Bool) : ∀ s2 out2 ev2, step s' t (.cmd (.create a w)) ≠ .ok 0 s2 out2 ev2 := by
  simp only [step, command, rejectConnection, refuse] at hr
  split at hr
  · rename_i h1
    cases hr
    obtain ⟨q, h2, h3⟩ := scan_any.1 h1
    have h4 := (C63_one_at_a_time { s with later := s.later ++ [(a, reason)] } q h2 as (by rw [h3]; exact hx) s' l h).1
    intro s2 out2 ev2 hc
    simp only [step, command, createConnection, refuse] at hc
    split at hc
    · cases hc
    · split at hc
      · cases hc
      · rw [if_pos (scan_any.2 ⟨q, h4, h3⟩)] at hc
        cases hc
  · cases hr

/-- Accepting a request after a connection with the same device was made the other way round leaves the request,
so that no other request follows. -/
theorem C63_accept_collision_violated (s : Ctl) (now : Nat) (q : Scan) (hq : s.scan = some q) (hc : q.addr ∈ peers s) (t : Bool) :
    step s now (.cmd (.accept q.addr t)) = .ok 0 s [] [] := by
  have h1 : (aclOf s q.addr).isSome = true := aclOf_isSome.2 hc
  simp [step, command, acceptConnection, hq, Option.filter, acceptPage, h1, Status.success]

/-- Such a state. -/
example : (run exampleA [(0, .cmd (.writeScanEnable true true)), (0, .cmd (.create 0xB true)), (1, .packet 0xB 0xA 0 (.page 0 true)),
    (2, .packet 0xB 0xA 0 (.pageRsp true))]).map (fun r => (r.1.scan, peers r.1)) = some (some ⟨0xB, true⟩, [0xB]) := by
  decide +kernel

end Verif.Br
