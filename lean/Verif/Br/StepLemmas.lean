import Verif.Br.Lemmas
/-!
# What a step does to the invariant, and when it fails
-/
namespace Verif.Br
open Verif.Conn (Table find erase firstWith getUnusedHandle ScoState keys Sound)
open Verif.Sco (ConnParams LinkParams)

variable {C : Type}

theorem length_erase {t : Table C} (hn : (keys t).Nodup) {h : Nat} {c : C} (hm : (h, c) ∈ t) :
    (erase t h).length + 1 = t.length := by
  induction t with
  | nil => cases hm
  | cons e t ih =>
    obtain ⟨k, d⟩ := e
    unfold keys at hn
    rw [List.map_cons, List.nodup_cons] at hn
    by_cases hk : k = h
    · subst hk
      have h1 : erase ((k, d) :: t) k = t := by
        unfold erase
        rw [List.filter_cons, if_neg (by simp), List.filter_eq_self]
        intro e he
        simp only [ne_eq, decide_eq_true_eq]
        intro h2
        exact hn.1 (List.mem_map.2 ⟨e, he, h2⟩)
      rw [h1, List.length_cons]
    · have h1 : erase ((k, d) :: t) h = (k, d) :: erase t h := by
        unfold erase
        rw [List.filter_cons, if_pos (by simp [hk])]
      rw [h1, List.length_cons, List.length_cons]
      rcases List.mem_cons.1 hm with h2 | h2
      · injection h2 with h2
        exact absurd h2.symm hk
      · rw [ih hn.2 h2]

theorem nodup_filter {t : Table C} (hn : (keys t).Nodup) (p : Nat × C → Bool) : (keys (t.filter p)).Nodup := by
  unfold keys at *
  exact (hn.sublist (List.Sublist.map _ List.filter_sublist))

theorem syncs_erase {s : Ctl} (hi : Inv s) {k a : Nat} {c : Syn} (hf : scoOf s.sco a = some (k, c)) :
    syncs { s with sco := erase s.sco k } a + 1 = syncs s a := by
  obtain ⟨h1, h2⟩ := scoOf_some hf
  have h3 : (erase s.sco k).filter (fun e => e.2.addr = a) = erase (s.sco.filter (fun e => e.2.addr = a)) k := by
    unfold erase
    rw [List.filter_filter, List.filter_filter]
    apply List.filter_congr
    intro e _
    exact Bool.and_comm _ _
  unfold syncs
  simp only [h3]
  exact length_erase (nodup_filter hi.ssound.nodup _) (c := c) (List.mem_filter.2 ⟨h1, by simp [h2]⟩)

theorem syncs_pos {s : Ctl} {a : Nat} : 1 ≤ syncs s a ↔ (scoOf s.sco a).isSome = true := by
  have := @syncs_zero s a
  cases h : scoOf s.sco a with
  | none =>
    rw [this.2 h]
    simp
  | some e =>
    have h1 : syncs s a ≠ 0 := by
      rw [ne_eq, this, h]
      exact nofun
    simp
    omega

/-- The end of a connection. -/
theorem endAcl_cases {s : Ctl} (hi : Inv s) {h : Nat} {c : Acl} (hm : (h, c) ∈ s.acl) :
    (1 ≤ syncs s c.addr ∧ endAcl s h c.addr = none) ∨
    (syncs s c.addr = 0 ∧ ∃ s', endAcl s h c.addr = some s' ∧ Inv s' ∧ peers s' = (peers s).erase c.addr ∧
      s' = { s with acl := erase s.acl h, lm := s'.lm }) := by
  have hin : c.addr ∈ peers s := List.mem_map.2 ⟨(h, c), hm, rfl⟩
  have h0 : c.addr ≠ 0 := fun h0 => hi.zero (h0 ▸ hin)
  have hlm : c.addr ∈ s.lm := hi.lm.mem_iff.2 hin
  have hpe := peers_erase hi hm
  unfold endAcl
  by_cases hs : (scoOf s.sco c.addr).isSome = true
  · rw [if_pos hs]
    exact .inl ⟨syncs_pos.2 hs, rfl⟩
  · rw [if_neg hs]
    right
    have hz : syncs s c.addr = 0 := by
      have := mt syncs_pos.1 hs
      omega
    unfold removeLink
    rw [if_neg h0, if_pos hlm]
    refine ⟨hz, { s with acl := erase s.acl h, lm := s.lm.erase c.addr }, rfl, ?_, hpe, rfl⟩
    refine ⟨sound_erase hi.sound h, hi.last, ?_, ?_, ?_, ?_, ?_, hi.scan, hi.ssound, hi.slast, hi.stream⟩
    · unfold peers
      rw [hpe]
      exact hi.nodup.erase _
    · have := length_erase hi.sound.nodup hm
      have := hi.few
      show (erase s.acl h).length ≤ 7
      omega
    · unfold peers
      rw [hpe]
      exact hi.lm.erase _
    · unfold peers
      rw [hpe]
      exact fun h => hi.zero (List.mem_of_mem_erase h)
    · intro p hp
      obtain ⟨h1, h2⟩ := hi.page p hp
      refine ⟨?_, h2⟩
      unfold peers
      rw [hpe]
      exact fun h => h1 (List.mem_of_mem_erase h)

theorem isSync_find {s : Ctl} {h : Nat} : isSync s h = true ↔ (find s.sco h).isSome = true := by
  rw [Conn.find_isSome_iff]
  unfold isSync keys
  simp

/-- Disconnect. -/
theorem disconnect_cases {s : Ctl} (hi : Inv s) (h r r' : Nat) :
    (disconnect s h r r' = .abort ∧ isSync s h = false ∧ ∃ c, (h, c) ∈ s.acl ∧ 2 ≤ syncs s c.addr) ∨
    (∃ st s' out ev, disconnect s h r r' = .ok st s' out ev ∧ Inv s' ∧ s'.page = s.page ∧ s'.scan = s.scan ∧ s'.mask = s.mask ∧
      (∀ e ∈ ev, ∃ k, e = .disconnComplete k r') ∧
      ¬(isSync s h = false ∧ ∃ c, (h, c) ∈ s.acl ∧ 2 ≤ syncs s c.addr)) := by
  have htell : ∀ s : Ctl, ∀ k, ∀ e ∈ tell s 0x05 (.disconnComplete k r'), ∃ k, e = .disconnComplete k r' := by
    intro s k e he
    unfold tell at he
    split at he
    · rw [List.mem_singleton] at he
      exact ⟨k, he⟩
    · cases he
  unfold disconnect
  cases hs : find s.sco h with
  | some c =>
    right
    have hy : isSync s h = true := isSync_find.2 (by rw [hs]; rfl)
    refine ⟨_, _, _, _, rfl, hi.eraseSco h, rfl, rfl, rfl, htell s h, ?_⟩
    rw [hy]
    exact fun h => nomatch h.1
  | none =>
    have hy : isSync s h = false := by
      rw [Bool.eq_false_iff]
      intro h1
      rw [isSync_find, hs] at h1
      cases h1
    simp only []
    cases ha : find s.acl h with
    | none =>
      right
      refine ⟨_, _, _, _, rfl, hi, rfl, rfl, rfl, nofun, ?_⟩
      rintro ⟨_, c, hc, _⟩
      rw [Conn.mem_find _ hi.sound.nodup _ _ hc] at ha
      cases ha
    | some c =>
      have hm := Conn.find_mem _ _ _ ha
      have huniq : ∀ c', (h, c') ∈ s.acl → c' = c := fun c' h1 => unique hi.sound.nodup h1 hm
      simp only []
      cases hk : scoOf s.sco c.addr with
      | some e =>
        obtain ⟨k, d⟩ := e
        simp only []
        have hse := syncs_erase hi hk
        rcases endAcl_cases (hi.eraseSco k) (h := h) (c := c) hm with ⟨h1, h2⟩ | ⟨h1, s', h2, h3, h4, h5⟩
        · rw [h2]
          left
          exact ⟨rfl, hy, c, hm, by omega⟩
        · rw [h2]
          right
          refine ⟨_, s', _, _, rfl, h3, by rw [h5], by rw [h5], by rw [h5], ?_, ?_⟩
          · intro e he
            rcases List.mem_append.1 he with he | he
            · exact htell s k e he
            · exact htell s h e he
          · rintro ⟨_, c', hc', hc2⟩
            rw [huniq c' hc'] at hc2
            omega
      | none =>
        simp only []
        have hz := syncs_zero.2 hk
        rcases endAcl_cases hi hm with ⟨h1, h2⟩ | ⟨h1, s', h2, h3, h4, h5⟩
        · omega
        · rw [h2]
          right
          refine ⟨_, s', _, _, rfl, h3, by rw [h5], by rw [h5], by rw [h5], htell s h, ?_⟩
          rintro ⟨_, c', hc', hc2⟩
          rw [huniq c' hc'] at hc2
          omega

theorem pending_eq (s : Ctl) (a : Nat) : scoPending s a = syncPending s a := by
  unfold scoPending syncPending
  rw [scoOf_find?]
  cases s.sco.find? (fun e => e.2.addr = a) with
  | none => rfl
  | some e =>
    obtain ⟨h, c⟩ := e
    simp only [Option.any_some]
    cases c.state <;> rfl

theorem pending_some {s : Ctl} {a : Nat} (h : scoPending s a = true) :
    ∃ k c, scoOf s.sco a = some (k, c) ∧ c.state ≠ .opened := by
  unfold scoPending at h
  cases hs : scoOf s.sco a with
  | none =>
    rw [hs] at h
    cases h
  | some e =>
    obtain ⟨k, c⟩ := e
    rw [hs] at h
    refine ⟨k, c, rfl, ?_⟩
    intro h1
    simp only [h1] at h
    revert h
    decide

theorem acceptSyn_ok {s : Ctl} (hi : Inv s) {a : Nat} (h : scoPending s a = true) (p : Option ConnParams) (bad : Status) :
    ∃ t st k l, acceptSyn s a p bad = some (t, st, k, l) ∧ Inv { s with sco := t } := by
  obtain ⟨k, c, hf, hc⟩ := pending_some h
  obtain ⟨hm, haddr⟩ := scoOf_some hf
  have hst : c.stream = false := by
    rw [Bool.eq_false_iff]
    exact fun h1 => hc (hi.stream k c hm h1)
  unfold acceptSyn
  rw [hf]
  simp only []
  cases hn : Sco.negotiate (negState c.state) c.params (p.getD c.params) with
  | some l =>
    simp only [openSyn, hst, Bool.false_eq_true, if_false, Option.map_some]
    exact ⟨_, _, _, _, rfl, hi.updateSco k _ (fun _ => rfl)⟩
  | none =>
    have h1 : scoOf (update s.sco k { c with state := .closed }) a = some (k, { c with state := .closed }) := by
      rw [scoOf_find?, find?_update (c := { c with state := .closed }) (c0 := c) (h := k) hi.ssound.nodup hm (fun x => decide (x.addr = a)) rfl]
      rw [scoOf_find?] at hf
      rw [hf]
      simp
    have h2 : cancelSyn (update s.sco k { c with state := .closed }) a = some (erase (update s.sco k { c with state := .closed }) k) := by
      unfold cancelSyn
      rw [h1]
      simp only [hst, Bool.false_eq_true, if_false]
    rw [h2]
    have h3 : Inv { s with sco := update s.sco k { c with state := .closed } } := by
      refine hi.updateSco k _ ?_
      simp only [hst]
      exact nofun
    exact ⟨_, _, _, _, rfl, h3.eraseSco k⟩

theorem cancelSyn_cases {s : Ctl} (hi : Inv s) (a : Nat) :
    (streaming s a = true ∧ cancelSyn s.sco a = none) ∨
    (streaming s a = false ∧ ∃ t, cancelSyn s.sco a = some t ∧ Inv { s with sco := t }) := by
  unfold cancelSyn streaming
  rw [scoOf_find?]
  cases s.sco.find? (fun e => e.2.addr = a) with
  | none => exact .inr ⟨rfl, _, rfl, hi⟩
  | some e =>
    obtain ⟨k, c⟩ := e
    simp only [Option.any_some]
    cases hc : c.stream with
    | true => exact .inl ⟨rfl, rfl⟩
    | false => exact .inr ⟨rfl, _, rfl, hi.eraseSco k⟩

theorem createSyn_cases {s : Ctl} (hi : Inv s) (a : Nat) (p : ConnParams) (st : ScoState) (sp lg : Bool) :
    (256 ≤ s.sco.length ∧ createSyn s a p st sp lg = none) ∨
    (s.sco.length < 256 ∧ ∃ h last, createSyn s a p st sp lg = some { s with sco := (h, ⟨a, p, noLink, st, sp, lg, false⟩) :: s.sco, lastSco := last } ∧
      h ∉ keys s.sco ∧ Inv { s with sco := (h, ⟨a, p, noLink, st, sp, lg, false⟩) :: s.sco, lastSco := last }) := by
  have hiff := Conn.unused_isSome_iff s.sco 256 511 s.lastSco hi.slast.1 hi.slast.2 hi.ssound
  unfold createSyn
  show _ ∨ _
  cases hg : getUnusedHandle s.sco Conn.scoStart Conn.scoEnd s.lastSco with
  | none =>
    left
    refine ⟨?_, rfl⟩
    have : ¬ s.sco.length < 511 - 256 + 1 := by
      intro h
      obtain ⟨r, hr⟩ := hiff.2 h
      have hr' : getUnusedHandle s.sco Conn.scoStart Conn.scoEnd s.lastSco = some r := hr
      rw [hg] at hr'
      cases hr'
    omega
  | some r =>
    obtain ⟨h, last⟩ := r
    right
    have h1 := hiff.1 ⟨(h, last), hg⟩
    obtain ⟨a1, a2, a3, a4, a5, -⟩ := Conn.unused_some _ _ _ _ hi.slast.1 hi.slast.2 _ _ hg
    refine ⟨by omega, h, last, rfl, a1, ?_⟩
    refine ⟨hi.sound, hi.last, hi.nodup, hi.few, hi.lm, hi.zero, hi.page, hi.scan, Conn.sound_cons _ _ _ _ _ hi.ssound a1 a2 a3, ⟨a4, a5⟩, ?_⟩
    intro k c hm hs
    rcases List.mem_cons.1 hm with h2 | h2
    · cases h2
      cases hs
    · exact hi.stream k c h2 hs

end Verif.Br
