import Verif.Br.StepLemmas
/-!
# Every step fails exactly as specified or keeps the invariant
-/
namespace Verif.Br
open Verif.Conn (Table find erase firstWith getUnusedHandle ScoState keys Sound)
open Verif.Sco (ConnParams LinkParams)

/-- The result of a step fits the specification. -/
def Fits (s : Ctl) (now : Nat) (x : Act) : Res → Prop
  | .abort => Aborts s now x
  | .hang => Hangs s x
  | .wild => Strays s x
  | .ok _ s' _ _ => Inv s' ∧ ¬Aborts s now x ∧ ¬Hangs s x ∧ ¬Strays s x

theorem mem_acl {s : Ctl} (hi : Inv s) {h : Nat} {c : Acl} : (h, c) ∈ s.acl ↔ find s.acl h = some c :=
  ⟨Conn.mem_find _ hi.sound.nodup _ _, Conn.find_mem _ _ _⟩

/-- The part of Inv.same that concerns commands that leave everything about connections. -/
theorem Inv.keep {s s' : Ctl} (hi : Inv s) (h1 : s'.acl = s.acl) (h2 : s'.sco = s.sco) (h3 : s'.lastAcl = s.lastAcl)
    (h4 : s'.lastSco = s.lastSco) (h5 : s'.lm = s.lm) (h6 : s'.page = s.page) (h7 : s'.scan = s.scan) : Inv s' :=
  hi.same h1 h2 h3 h4 h5 (by rw [h6]; exact hi.page) (by rw [h7]; exact hi.scan)

theorem paging_same (s : Ctl) (now : Nat) :
    ∃ page, (paging s now).1 = { s with page := page } ∧ ∀ p, page = some p → ∃ q, s.page = some q ∧ q.addr = p.addr := by
  unfold paging
  split
  · rename_i h
    exact ⟨s.page, rfl, fun p hp => ⟨p, hp, rfl⟩⟩
  · rename_i p h
    split
    · exact ⟨none, rfl, nofun⟩
    · split
      · refine ⟨_, rfl, ?_⟩
        intro q hq
        injection hq with hq
        subst hq
        exact ⟨p, h, rfl⟩
      · exact ⟨s.page, rfl, fun p hp => ⟨p, hp, rfl⟩⟩

theorem inquiring_same (s : Ctl) (now : Nat) : ∃ inq, (inquiring s now).1 = { s with inq := inq } := by
  unfold inquiring
  split
  · exact ⟨s.inq, rfl⟩
  · split
    · exact ⟨_, rfl⟩
    · split
      · exact ⟨_, rfl⟩
      · exact ⟨s.inq, rfl⟩

theorem tick_eq (s : Ctl) (now : Nat) :
    tick s now = .ok 0 (inquiring (paging { s with later := [] } now).1 now).1
      ((sendRejects s).1 ++ (paging { s with later := [] } now).2.1 ++ (inquiring (paging { s with later := [] } now).1 now).2.1)
      ((sendRejects s).2 ++ (paging { s with later := [] } now).2.2 ++ (inquiring (paging { s with later := [] } now).1 now).2.2) := rfl

theorem tick_fits {s : Ctl} (hi : Inv s) (now : Nat) : Fits s now .tick (tick s now) := by
  rw [tick_eq]
  refine ⟨?_, id, id, id⟩
  obtain ⟨page, h1, h2⟩ := paging_same { s with later := [] } now
  obtain ⟨inq, h3⟩ := inquiring_same (paging { s with later := [] } now).1 now
  rw [h3, h1]
  refine hi.same rfl rfl rfl rfl rfl ?_ hi.scan
  intro p hp
  obtain ⟨q, hq1, hq2⟩ := h2 p hp
  rw [← hq2]
  exact hi.page q hq1

theorem accept_fits {s : Ctl} (hi : Inv s) (now a : Nat) (t : Bool) :
    Fits s now (.cmd (.accept a t)) (acceptConnection s now a t) := by
  have hno : ∀ s', Inv s' → ∀ st out ev, ¬Aborts s now (.cmd (.accept a t)) → Fits s now (.cmd (.accept a t)) (.ok st s' out ev) :=
    fun s' h _ _ _ h1 => ⟨h, h1, id, id⟩
  unfold acceptConnection
  cases hs : s.scan.filter (fun p => p.addr = a) with
  | some p =>
    rw [Option.filter_eq_some_iff] at hs
    obtain ⟨hs, hpa⟩ := hs
    have hpa : p.addr = a := by simpa using hpa
    subst hpa
    have h0 := hi.scan p hs
    simp only [acceptPage]
    by_cases hc : (aclOf s p.addr).isSome = true
    · rw [if_pos hc]
      refine hno s hi _ _ _ ?_
      rintro ⟨_, h1, _⟩
      exact h1 (aclOf_isSome.1 hc)
    · rw [if_neg hc]
      have hnp : p.addr ∉ peers s := fun h => hc (aclOf_isSome.2 h)
      rcases connect_ok hi (now := now) (role := acceptorRole t p.allow) hnp h0 with ⟨h, last, h1, h2, h3, h4, h5⟩ | ⟨h1, h2⟩
      · rw [h1]
        refine hno _ ?_ _ _ _ ?_
        · refine hi.connected hnp h0 h2 h3 h4 h5 ?_ nofun
          intro q hq
          split at hq
          · cases hq
          · rename_i h6
            refine ⟨hq, ?_⟩
            intro h7
            apply h6
            rw [hq]
            simp [h7]
        · rintro ⟨_, _, h6⟩
          omega
      · rw [h1]
        exact ⟨⟨p, hs, rfl⟩, hnp, h2⟩
  | none =>
    have hna : ¬Aborts s now (.cmd (.accept a t)) := by
      rintro ⟨⟨p, h1, h2⟩, _⟩
      rw [h1] at hs
      simp [h2, Option.filter] at hs
    simp only []
    by_cases hp : scoPending s a = true
    · rw [if_pos hp]
      obtain ⟨tb, st, k, l, h1, h2⟩ := acceptSyn_ok hi hp none Status.scoIntervalRejected
      rw [h1]
      exact hno _ h2 _ _ _ hna
    · rw [if_neg hp]
      exact hno s hi _ _ _ hna

theorem setup_fits {s : Ctl} (hi : Inv s) (now h : Nat) (p : ConnParams) (sp lg : Bool) (x : Act)
    (ha : ¬Aborts s now x) (hs : ¬Strays s x)
    (hh : Hangs s x ↔ ∃ c, (h, c) ∈ s.acl ∧ syncPending s c.addr = false ∧ 256 ≤ s.sco.length) :
    Fits s now x (setupSync s h p sp lg) := by
  unfold setupSync
  cases hf : find s.acl h with
  | none =>
    refine ⟨hi, ha, ?_, hs⟩
    rw [hh]
    rintro ⟨c, h1, _⟩
    rw [mem_acl hi, hf] at h1
    cases h1
  | some c =>
    have hm := (mem_acl hi).2 hf
    have hu : ∀ c', (h, c') ∈ s.acl → c' = c := fun c' h1 => unique hi.sound.nodup h1 hm
    simp only []
    by_cases hp : scoPending s c.addr = true
    · rw [if_pos hp]
      refine ⟨hi, ha, ?_, hs⟩
      rw [hh]
      rintro ⟨c', h1, h2, _⟩
      rw [hu c' h1, ← pending_eq, hp] at h2
      cases h2
    · rw [if_neg hp]
      rcases createSyn_cases hi c.addr p .pending sp lg with ⟨h1, h2⟩ | ⟨h1, k, last, h2, h3, h4⟩
      · rw [h2]
        refine hh.2 ⟨c, hm, ?_, h1⟩
        rw [← pending_eq]
        exact Bool.eq_false_iff.2 hp
      · rw [h2]
        refine ⟨h4, ha, ?_, hs⟩
        rw [hh]
        rintro ⟨c', _, _, h5⟩
        omega

theorem scan_any {s : Ctl} {a : Nat} : s.scan.any (fun p => p.addr = a) = true ↔ ∃ p, s.scan = some p ∧ p.addr = a := by
  cases s.scan <;> simp

theorem command_fits {s : Ctl} (hi : Inv s) (now : Nat) (c : Cmd) (hx : Named (.cmd c)) :
    Fits s now (.cmd c) (command s now c) := by
  have ok : ∀ {s' st out ev}, Inv s' → ¬Aborts s now (.cmd c) → ¬Hangs s (.cmd c) → ¬Strays s (.cmd c) →
      Fits s now (.cmd c) (.ok st s' out ev) := fun h1 h2 h3 h4 => ⟨h1, h2, h3, h4⟩
  cases c with
  | accept a t => exact accept_fits hi now a t
  | setupSync h p sp => exact setup_fits hi now h p sp false _ id id Iff.rfl
  | addSco h t => exact setup_fits hi now h _ false true _ id id Iff.rfl
  | disconnect h r =>
    simp only [command]
    rcases disconnect_cases hi h r 0x16 with ⟨h1, h2⟩ | ⟨st, s', out, ev, h1, h2, h3, h4, h5, h6, h7⟩
    · rw [h1]
      exact h2
    · rw [h1]
      exact ⟨h2, h7, id, id⟩
  | acceptSync a p =>
    simp only [command, acceptSync]
    by_cases hp : scoPending s a = true
    · rw [if_pos hp]
      obtain ⟨tb, st, k, l, h1, h2⟩ := acceptSyn_ok hi hp (some p) Status.unknown
      rw [h1]
      exact ok h2 id id id
    · rw [if_neg hp]
      exact ok hi id id id
  | rejectSync a r =>
    simp only [command, rejectSync]
    by_cases hp : scoPending s a = true
    · rw [if_pos hp]
      rcases cancelSyn_cases hi a with ⟨h1, h2⟩ | ⟨h1, t, h2, h3⟩
      · obtain ⟨k, d, hd, hd2⟩ := pending_some hp
        have hm := (scoOf_some hd).1
        rw [scoOf_find?] at hd
        unfold streaming at h1
        rw [hd] at h1
        exact absurd (hi.stream k d hm h1) hd2
      · rw [h2]
        exact ok h3 id id id
    · rw [if_neg hp]
      exact ok hi id id id
  | acl h pb bc d =>
    simp only [command, sendAcl]
    split
    · rename_i hb
      exact hb
    · rename_i hb
      split <;> exact ok hi hb id id
  | extLocal p =>
    simp only [command, lmpFeatures]
    have hn : ∀ {n}, p = n → n < 3 → ¬ Strays s (.cmd (.extLocal p)) := by
      intro n h1 h2 h3
      simp only [Strays] at h3
      omega
    by_cases h1 : p = 1
    · rw [if_pos h1]
      exact ok hi id id (hn h1 (by omega))
    · rw [if_neg h1]
      by_cases h2 : p = 0
      · rw [if_pos h2]
        exact ok hi id id (hn h2 (by omega))
      · rw [if_neg h2]
        by_cases h3 : p = 2
        · rw [if_pos h3]
          exact ok hi id id (hn h3 (by omega))
        · rw [if_neg h3]
          show 3 ≤ p
          omega
  | reset =>
    simp only [command, reset]
    refine ok ?_ id id id
    refine ⟨⟨List.nodup_nil, nofun⟩, by simp [Conn.aclStart], List.nodup_nil, Nat.zero_le _, List.Perm.refl _, nofun, nofun, nofun,
      ⟨List.nodup_nil, nofun⟩, by simp [Conn.scoStart], nofun⟩
  | create a w =>
    simp only [command, createConnection, refuse]
    split
    · exact ok hi id id id
    · split
      · exact ok hi id id id
      · rename_i h1
        split
        · exact ok hi id id id
        · refine ok (hi.same rfl rfl rfl rfl rfl ?_ hi.scan) id id id
          intro p hp
          injection hp with hp
          subst hp
          exact ⟨fun h => h1 (aclOf_isSome.2 h), hx⟩
  | cancel a =>
    simp only [command, cancelConnection, refuse]
    (repeat' split) <;> first
      | exact ok hi id id id
      | exact ok (hi.same rfl rfl rfl rfl rfl nofun hi.scan) id id id
  | writePolicy h p =>
    simp only [command, writePolicy, refuse]
    split
    · exact ok hi id id id
    · rename_i c hc
      split
      · exact ok hi id id id
      · exact ok (hi.setAcl (c := { c with policy := p }) (c0 := c) ((mem_acl hi).2 hc) rfl).1 id id id
  | _ =>
    simp only [command, startInquiry, cancelInquiry, rejectConnection, switchRole, writeDefaultPolicy, ask, sendSco, refuse]
    (repeat' split) <;> first
      | exact ok hi id id id
      | exact ok (hi.keep rfl rfl rfl rfl rfl rfl rfl) id id id

theorem check_fits {s : Ctl} (hi : Inv s) (now h : Nat) : Fits s now (.check h) (checkExpiring s now h) := by
  unfold checkExpiring
  cases hf : find s.acl h with
  | none =>
    refine ⟨hi, ?_, id, id⟩
    rintro ⟨c, h1, _⟩
    rw [mem_acl hi, hf] at h1
    cases h1
  | some c =>
    have hm := (mem_acl hi).2 hf
    have hu : ∀ c', (h, c') ∈ s.acl → c' = c := fun c' h1 => unique hi.sound.nodup h1 hm
    simp only []
    by_cases he : c.last + 3000000000 < now
    · rw [if_pos he]
      rcases disconnect_cases hi h Status.connectionTimeout Status.connectionTimeout with
        ⟨h1, h2, d, hd1, hd2⟩ | ⟨st, s', out, ev, h1, h2, h3, h4, h5, h6, h7⟩
      · rw [h1]
        have := hu d hd1
        subst this
        exact ⟨d, hd1, he, h2, hd2⟩
      · rw [h1]
        refine ⟨h2, ?_, id, id⟩
        rintro ⟨d, hd1, _, hd3, hd4⟩
        exact h7 ⟨hd3, d, hd1, hd4⟩
    · rw [if_neg he]
      have hno : ¬Aborts s now (.check h) := by
        rintro ⟨d, hd1, hd2, _⟩
        rw [hu d hd1] at hd2
        exact he hd2
      split <;> exact ⟨hi, hno, id, id⟩

theorem dispatch_fits {s : Ctl} (hi : Inv s) (now src dst rssi : Nat) (p : Pkt) (h0 : src ≠ 0) (hme : forMe s dst = true) :
    Fits s now (.packet src dst rssi p) (dispatch s now src rssi p) := by
  have ok : ∀ {s' st out ev}, Inv s' → ¬Aborts s now (.packet src dst rssi p) → ¬Hangs s (.packet src dst rssi p) →
      ¬Strays s (.packet src dst rssi p) → Fits s now (.packet src dst rssi p) (.ok st s' out ev) :=
    fun h1 h2 h3 h4 => ⟨h1, h2, h3, h4⟩
  cases p with
  | pageRsp t =>
    simp only [dispatch, onPageRsp]
    split
    · rename_i hp
      refine ok hi ?_ id id
      rintro ⟨_, ⟨p, h1, _⟩, _⟩
      rw [h1] at hp
      cases hp
    · rename_i p hp
      have hu : ∀ q, s.page = some q → q = p := by
        intro q hq
        rw [hp] at hq
        injection hq with hq
        exact hq.symm
      split
      · rename_i hne
        refine ok hi ?_ id id
        rintro ⟨_, ⟨q, h1, h2⟩, _⟩
        rw [hu q h1] at h2
        exact hne h2
      · rename_i hne
        have hpa : p.addr = src := Decidable.of_not_not hne
        obtain ⟨h1, h2⟩ := hi.page p hp
        rw [hpa] at h1
        rcases connect_ok hi (now := now) (role := pagerRole p.allow t) h1 h0 with ⟨h, last, a1, a2, a3, a4, a5⟩ | ⟨a1, a2⟩
        · rw [a1]
          refine ok ?_ ?_ id id
          · exact hi.connected h1 h0 a2 a3 a4 a5 nofun (fun _ h => h)
          · rintro ⟨_, _, h6⟩
            omega
        · rw [a1]
          exact ⟨hme, ⟨p, hp, hpa⟩, a2⟩
  | disconnect r =>
    simp only [dispatch, onDisconnect]
    split
    · rename_i hn
      refine ok hi ?_ id id
      rintro ⟨_, h1, _⟩
      exact aclOf_none.1 hn h1
    · rename_i h c hc
      obtain ⟨h1, h2⟩ := aclOf_some hc
      subst h2
      have hin : c.addr ∈ peers s := List.mem_map.2 ⟨(h, c), h1, rfl⟩
      rcases endAcl_cases hi h1 with ⟨a1, a2⟩ | ⟨a1, s', a2, a3, a4, a5⟩
      · rw [a2]
        exact ⟨hme, hin, a1⟩
      · rw [a2]
        refine ok a3 ?_ id id
        rintro ⟨_, _, h6⟩
        omega
  | scoRsp st l =>
    simp only [dispatch, onScoRsp]
    have hst : ∀ k c, scoOf s.sco src = some (k, c) → streaming s src = c.stream := by
      intro k c hc
      unfold streaming
      rw [scoOf_find?] at hc
      rw [hc]
      rfl
    split
    · rename_i hn
      refine ok hi ?_ id id
      rintro ⟨_, h1⟩
      unfold streaming at h1
      rw [scoOf_find?] at hn
      rw [hn] at h1
      cases h1
    · rename_i k c hc
      split
      · simp only [openSyn]
        cases hcs : c.stream with
        | true =>
          refine ⟨hme, ?_⟩
          rw [hst k c hc, hcs]
        | false =>
          simp only [Bool.false_eq_true, if_false]
          refine ok (hi.updateSco k _ (fun _ => rfl)) ?_ id id
          rintro ⟨_, h1⟩
          rw [hst k c hc, hcs] at h1
          cases h1
      · rcases cancelSyn_cases hi src with ⟨h1, h2⟩ | ⟨h1, t, h2, h3⟩
        · rw [h2]
          exact ⟨hme, h1⟩
        · rw [h2]
          refine ok h3 ?_ id id
          rintro ⟨_, h4⟩
          rw [h1] at h4
          cases h4
  | lmp b =>
    cases b with
    | true => exact ok hi (fun h => nomatch h.2) id id
    | false => exact ⟨hme, rfl⟩
  | scoReq p cod =>
    simp only [dispatch, onScoReq]
    by_cases hp : scoPending s src = true
    · rw [if_pos hp]
      refine ok hi id ?_ id
      rintro ⟨_, h1, _⟩
      rw [← pending_eq, hp] at h1
      cases h1
    · rw [if_neg hp]
      rcases createSyn_cases hi src p (if Sco.isExtended p then .sentEsco else .sentSco) false false with ⟨h1, h2⟩ | ⟨h1, k, last, h2, h3, h4⟩
      · rw [h2]
        refine ⟨hme, ?_, h1⟩
        rw [← pending_eq]
        exact Bool.eq_false_iff.2 hp
      · rw [h2]
        refine ok h4 id ?_ id
        rintro ⟨_, _, h5⟩
        omega
  | extReq p =>
    simp only [dispatch, onExtReq, lmpFeatures]
    have hn : ∀ {n}, p = n → n < 3 → ¬ Strays s (.packet src dst rssi (.extReq p)) := by
      rintro n h1 h2 ⟨_, h3⟩
      omega
    by_cases h1 : p = 1
    · rw [if_pos h1]
      exact ok hi id id (hn h1 (by omega))
    · rw [if_neg h1]
      by_cases h2 : p = 0
      · rw [if_pos h2]
        exact ok hi id id (hn h2 (by omega))
      · rw [if_neg h2]
        by_cases h3 : p = 2
        · rw [if_pos h3]
          exact ok hi id id (hn h3 (by omega))
        · rw [if_neg h3]
          exact ⟨hme, by omega⟩
  | page cod w =>
    simp only [dispatch, onPage]
    (repeat' split) <;> first
      | exact ok hi id id id
      | skip
    refine ok (hi.same rfl rfl rfl rfl rfl hi.page ?_) id id id
    intro q hq
    injection hq with hq
    subst hq
    exact h0
  | pageReject r =>
    simp only [dispatch, onPageReject]
    (repeat' split) <;> first
      | exact ok hi id id id
      | exact ok (hi.same rfl rfl rfl rfl rfl nofun hi.scan) id id id
  | roleReq =>
    simp only [dispatch, onRoleReq]
    split
    · exact ok hi id id id
    · rename_i h c hc
      split
      · exact ok hi id id id
      · exact ok (hi.setAcl (c := { c with role := c.role.other }) (c0 := c) (aclOf_some hc).1 rfl).1 id id id
  | roleRsp st =>
    simp only [dispatch, onRoleRsp]
    split
    · exact ok hi id id id
    · rename_i h c hc
      split
      · exact ok hi id id id
      · exact ok (hi.setAcl (c := { c with role := c.role.other }) (c0 := c) (aclOf_some hc).1 rfl).1 id id id
  | scoDisc r =>
    simp only [dispatch, onScoDisc]
    split
    · exact ok hi id id id
    · exact ok (hi.eraseSco _) id id id
  | _ =>
    simp only [dispatch, onInquiry, onInqRsp, onAcl, onSco, report]
    (repeat' split) <;> exact ok hi id id id

theorem forMe_iff {s : Ctl} {dst : Nat} : (¬(dst ≠ 0 ∧ dst ≠ s.addr)) ↔ forMe s dst = true := by
  unfold forMe
  simp only [Bool.or_eq_true, decide_eq_true_eq]
  omega

theorem fits {s : Ctl} (hi : Inv s) (now : Nat) (x : Act) (hx : Named x) : Fits s now x (step s now x) := by
  cases x with
  | cmd c => exact command_fits hi now c hx
  | tick => exact tick_fits hi now
  | check h => exact check_fits hi now h
  | packet src dst rssi p =>
    simp only [step, incoming]
    by_cases hme : forMe s dst = true
    · rw [if_neg (forMe_iff.2 hme)]
      obtain ⟨h1, h2⟩ := touch_inv hi now src
      have h3 := touch_eq s now src
      have hme' : forMe (touch s now src) dst = true := by
        rw [h3]
        exact hme
      have hl : (touch s now src).acl.length = s.acl.length := by
        have := congrArg List.length h2
        unfold peers at this
        rwa [List.length_map, List.length_map] at this
      have h4 := dispatch_fits h1 now src dst rssi p hx hme'
      have ha : Aborts (touch s now src) now (.packet src dst rssi p) ↔ Aborts s now (.packet src dst rssi p) := by
        cases p <;> simp only [Aborts, hl, h2] <;> rw [h3] <;> exact Iff.rfl
      have hh : Hangs (touch s now src) (.packet src dst rssi p) ↔ Hangs s (.packet src dst rssi p) := by
        cases p <;> simp only [Hangs] <;> rw [h3] <;> exact Iff.rfl
      have hs : Strays (touch s now src) (.packet src dst rssi p) ↔ Strays s (.packet src dst rssi p) := by
        cases p <;> simp only [Strays] <;> rw [h3] <;> exact Iff.rfl
      revert h4
      cases dispatch (touch s now src) now src rssi p with
      | abort => exact ha.1
      | hang => exact hh.1
      | wild => exact hs.1
      | ok st s' out ev => exact fun h => ⟨h.1, fun k => h.2.1 (ha.2 k), fun k => h.2.2.1 (hh.2 k), fun k => h.2.2.2 (hs.2 k)⟩
    · rw [if_pos (Decidable.of_not_not (fun h => hme (forMe_iff.1 h)))]
      refine ⟨hi, ?_, ?_, ?_⟩
      · cases p <;> simp [Aborts, hme]
      · cases p <;> simp [Hangs, hme]
      · cases p <;> simp [Strays, hme]

theorem fresh_inv (addr : Nat) (i : Info) (n : Nat) : Inv (Ctl.fresh addr i n) := by
  refine ⟨⟨List.nodup_nil, nofun⟩, by simp [Ctl.fresh, Conn.aclStart], List.nodup_nil, Nat.zero_le _, List.Perm.refl _, nofun, nofun, nofun,
      ⟨List.nodup_nil, nofun⟩, by simp [Ctl.fresh, Conn.scoStart], nofun⟩

theorem run_inv {s : Ctl} (hi : Inv s) (as : List (Nat × Act)) (hx : ∀ x ∈ as, Named x.2) (s' : Ctl) (l : List Seen)
    (h : run s as = some (s', l)) : Inv s' := by
  induction as generalizing s l with
  | nil =>
    cases h
    exact hi
  | cons x as ih =>
    obtain ⟨now, a⟩ := x
    have hf := fits hi now a (hx _ List.mem_cons_self)
    simp only [run] at h
    split at h
    · rename_i st s1 out ev hs
      rw [hs] at hf
      rw [Option.map_eq_some_iff] at h
      obtain ⟨⟨s2, l2⟩, h1, h2⟩ := h
      cases h2
      exact ih hf.1 (fun x hx' => hx x (List.mem_cons_of_mem _ hx')) l2 h1
    · cases h

end Verif.Br
