import Verif.Conn.Spec
import Verif.Conn.Lemmas
/-!
# Properties C05, C06: connection handles
-/

namespace Verif.Conn
open Verif.Addr

theorem reachable_inv {s : Handler} (hr : Reachable s) : Inv s := by
  obtain ⟨ops, h⟩ := hr
  exact inv_run ops _ _ inv_init h

theorem live_handles (s : Handler) :
    (live s).map (·.1) = keys s.acl ++ keys s.sco ++ keys s.le := by
  simp [live, keys, Function.comp_def]

theorem mem_live_acl (s : Handler) (h : Nat) (c : AclConn) :
    (h, Conn.acl c) ∈ live s ↔ (h, c) ∈ s.acl := by
  simp [live]

theorem mem_live_sco (s : Handler) (h : Nat) (c : ScoConn) :
    (h, Conn.sco c) ∈ live s ↔ (h, c) ∈ s.sco := by
  simp [live]

theorem mem_live_le (s : Handler) (h : Nat) (c : LeConn) :
    (h, Conn.le c) ∈ live s ↔ (h, c) ∈ s.le := by
  simp [live]

theorem live_inRange {s : Handler} (hi : Inv s) {h : Nat} {c : Conn} (hm : (h, c) ∈ live s) :
    InRange h c := by
  cases c with
  | acl c =>
    have := hi.acl.range h (mem_keys ((mem_live_acl _ _ _).mp hm))
    simpa [InRange, aclEnd] using this.2
  | sco c => exact hi.sco.range h (mem_keys ((mem_live_sco _ _ _).mp hm))
  | le c => exact hi.le.range h (mem_keys ((mem_live_le _ _ _).mp hm))

/-- **C05.** In every reachable state no two live connections share a handle. -/
theorem C05_handles_unique (s : Handler) (hr : Reachable s) : ((live s).map (·.1)).Nodup := by
  have hi := reachable_inv hr
  rw [live_handles, List.nodup_append, List.nodup_append]
  refine ⟨⟨hi.acl.nodup, hi.sco.nodup, ?_⟩, hi.le.nodup, ?_⟩
  · intro a ha b hb
    have h1 := hi.acl.range a ha
    have h2 := hi.sco.range b hb
    simp only [aclStart, aclEnd, scoStart, scoEnd] at h1 h2
    omega
  · intro a ha b hb
    have h2 := hi.le.range b hb
    rcases List.mem_append.mp ha with ha | ha
    · have h1 := hi.acl.range a ha
      simp only [aclStart, aclEnd, leStart, leEnd] at h1 h2
      omega
    · have h1 := hi.sco.range a ha
      simp only [scoStart, scoEnd, leStart, leEnd] at h1 h2
      omega

/-- **C05.** In every reachable state every live handle is in the range of its kind. -/
theorem C05_handle_in_range (s : Handler) (hr : Reachable s) :
    ∀ h c, (h, c) ∈ live s → InRange h c :=
  fun _ _ hm => live_inRange (reachable_inv hr) hm

/-- **C05.** Creating an ACL connection returns a handle no live connection uses, in the ACL range,
and adds exactly that connection. -/
theorem C05_create_acl (s : Handler) (hr : Reachable s) (addr own : Address) (h : Nat) (s' : Handler)
    (hc : createAcl s addr own = .ok h s') :
    h ∉ (live s).map (·.1) ∧ InRange h (.acl ⟨addr, own, .central⟩) ∧
    ∀ e, e ∈ live s' ↔ e = (h, .acl ⟨addr, own, .central⟩) ∨ e ∈ live s := by
  have hi := reachable_inv hr
  unfold createAcl at hc
  split at hc
  · simp at hc
  · rename_i h' last hg
    simp only [Res.ok.injEq] at hc
    obtain ⟨rfl, rfl⟩ := hc
    obtain ⟨a1, a2, a3, -⟩ := unused_some _ _ _ _ hi.lastAcl.1 hi.lastAcl.2 _ _ hg
    refine ⟨?_, ?_, ?_⟩
    · rw [live_handles]
      simp only [List.mem_append, not_or]
      refine ⟨⟨a1, fun hm => ?_⟩, fun hm => ?_⟩
      · have := hi.sco.range _ hm
        simp only [aclStart, aclEnd, scoStart, scoEnd] at *
        omega
      · have := hi.le.range _ hm
        simp only [aclStart, aclEnd, leStart, leEnd] at *
        omega
    · simpa [InRange, aclEnd] using a3
    · intro e
      simp [live, or_assoc]

/-- **C05.** The same for LE connections. -/
theorem C05_create_le (s : Handler) (hr : Reachable s) (addr resolved own : TypedAddress)
    (role : Role) (h : Nat) (s' : Handler) (hc : createLe s addr resolved own role = .ok h s') :
    h ∉ (live s).map (·.1) ∧ InRange h (.le ⟨addr, own, resolved, role⟩) ∧
    ∀ e, e ∈ live s' ↔ e = (h, .le ⟨addr, own, resolved, role⟩) ∨ e ∈ live s := by
  have hi := reachable_inv hr
  unfold createLe at hc
  split at hc
  · simp at hc
  · rename_i h' last hg
    simp only [Res.ok.injEq] at hc
    obtain ⟨rfl, rfl⟩ := hc
    obtain ⟨a1, a2, a3, -⟩ := unused_some _ _ _ _ hi.lastLe.1 hi.lastLe.2 _ _ hg
    refine ⟨?_, ⟨a2, a3⟩, ?_⟩
    · rw [live_handles]
      simp only [List.mem_append, not_or]
      refine ⟨⟨fun hm => ?_, fun hm => ?_⟩, a1⟩
      · have := hi.acl.range _ hm
        simp only [aclStart, aclEnd, leStart, leEnd] at *
        omega
      · have := hi.sco.range _ hm
        simp only [scoStart, scoEnd, leStart, leEnd] at *
        omega
    · intro e
      simp only [live, List.map_cons, List.mem_append, List.mem_cons]
      grind

/-- **C05.** The same for SCO connections. -/
theorem C05_create_sco (s : Handler) (hr : Reachable s) (addr : Address) (st : ScoState)
    (spoofed legacy : Bool) (h : Nat) (s' : Handler)
    (hc : createSco s addr st spoofed legacy = .ok h s') :
    h ∉ (live s).map (·.1) ∧ InRange h (.sco ⟨addr, st, spoofed, legacy, false⟩) ∧
    ∀ e, e ∈ live s' ↔ e = (h, .sco ⟨addr, st, spoofed, legacy, false⟩) ∨ e ∈ live s := by
  have hi := reachable_inv hr
  unfold createSco at hc
  split at hc
  · simp at hc
  · rename_i h' last hg
    simp only [Res.ok.injEq] at hc
    obtain ⟨rfl, rfl⟩ := hc
    obtain ⟨a1, a2, a3, -⟩ := unused_some _ _ _ _ hi.lastSco.1 hi.lastSco.2 _ _ hg
    refine ⟨?_, ⟨a2, a3⟩, ?_⟩
    · rw [live_handles]
      simp only [List.mem_append, not_or]
      refine ⟨⟨fun hm => ?_, a1⟩, fun hm => ?_⟩
      · have := hi.acl.range _ hm
        simp only [aclStart, aclEnd, scoStart, scoEnd] at *
        omega
      · have := hi.le.range _ hm
        simp only [scoStart, scoEnd, leStart, leEnd] at *
        omega
    · intro e
      simp only [live, List.map_cons, List.mem_append, List.mem_cons]
      grind

/-- **C05.** The search for a free handle returns exactly when fewer than 256 connections of that
kind are live; otherwise it loops for ever. It never aborts. -/
theorem C05_search_terminates_iff (s : Handler) (hr : Reachable s) :
    (∀ addr own, (∃ h s', createAcl s addr own = .ok h s') ↔ s.acl.length < 256) ∧
    (∀ addr resolved own role, (∃ h s', createLe s addr resolved own role = .ok h s') ↔
      s.le.length < 256) ∧
    (∀ addr st sp l, (∃ h s', createSco s addr st sp l = .ok h s') ↔ s.sco.length < 256) ∧
    (∀ addr own, createAcl s addr own = .hang ↔ s.acl.length = 256) ∧
    (∀ addr resolved own role, createLe s addr resolved own role = .hang ↔ s.le.length = 256) ∧
    (∀ addr st sp l, createSco s addr st sp l = .hang ↔ s.sco.length = 256) := by
  have hi := reachable_inv hr
  have e1 := unused_isSome_iff _ _ _ _ hi.lastAcl.1 hi.lastAcl.2 hi.acl
  have e2 := unused_isSome_iff _ _ _ _ hi.lastLe.1 hi.lastLe.2 hi.le
  have e3 := unused_isSome_iff _ _ _ _ hi.lastSco.1 hi.lastSco.2 hi.sco
  have b1 := bound _ _ _ (by decide) hi.acl
  have b2 := bound _ _ _ (by decide) hi.le
  have b3 := bound _ _ _ (by decide) hi.sco
  simp only [aclStart, aclEnd, leStart, leEnd, scoStart, scoEnd] at e1 e2 e3 b1 b2 b3
  refine ⟨?_, ?_, ?_, ?_, ?_, ?_⟩ <;> intros <;>
    simp only [createAcl, createLe, createSco, aclStart, aclEnd, leStart, leEnd, scoStart, scoEnd]
  · rw [← e1]
    cases getUnusedHandle s.acl 0 255 s.lastAcl <;> simp
  · rw [← e2]
    cases getUnusedHandle s.le 512 767 s.lastLe <;> simp
  · rw [← e3]
    cases getUnusedHandle s.sco 256 511 s.lastSco <;> simp
  · cases hg : getUnusedHandle s.acl 0 255 s.lastAcl <;> simp [hg] at e1 ⊢ <;> omega
  · cases hg : getUnusedHandle s.le 512 767 s.lastLe <;> simp [hg] at e2 ⊢ <;> omega
  · cases hg : getUnusedHandle s.sco 256 511 s.lastSco <;> simp [hg] at e3 ⊢ <;> omega

/-- **C05.** Handles are given out in turn: a new ACL handle is the cursor itself or the first
free one after it, cyclically, and the cursor then moves past it. So a handle that was just freed is
reused only after every other free handle of the range has had its turn. -/
theorem C05_round_robin (s : Handler) (hr : Reachable s) (addr own : Address) (h : Nat) (s' : Handler)
    (hc : createAcl s addr own = .ok h s') :
    s'.lastAcl = (h + 1) % 256 ∧
    ∃ i, i < 256 ∧ h = (s.lastAcl + i) % 256 ∧ ∀ j, j < i → (s.lastAcl + j) % 256 ∈ keys s.acl := by
  have hi := reachable_inv hr
  have hlen : s.acl.length < 256 := ((C05_search_terminates_iff s hr).1 addr own).mp ⟨h, s', hc⟩
  unfold createAcl at hc
  split at hc
  · simp at hc
  · rename_i h' last hg
    simp only [Res.ok.injEq] at hc
    obtain ⟨rfl, rfl⟩ := hc
    have hl := hi.lastAcl
    obtain ⟨a1, a2, a3, a4, a5, a6, i, a7, a8, a9⟩ := unused_some _ _ _ _ hl.1 hl.2 _ _ hg
    simp only [aclStart, aclEnd] at *
    have ht : ∀ i, tried 0 255 s.lastAcl i = (s.lastAcl + i) % 256 := by
      intro i
      induction i with
      | zero => simp only [tried]; omega
      | succ i ih =>
        rw [tried_add, ih]
        simp only [tried, next]
        split <;> omega
    refine ⟨?_, i, ?_, ?_, ?_⟩
    · subst a6; simp only [next]; split <;> omega
    · by_contra hge
      have : i = 256 := by omega
      subst this
      have := a9 0 (by omega)
      rw [a8, ht] at a1
      rw [ht] at this
      apply a1
      have e : (s.lastAcl + 256) % 256 = (s.lastAcl + 0) % 256 := by omega
      rw [e]; exact this
    · rw [a8, ht]
    · intro j hj
      rw [← ht]; exact a9 j hj

/-- **C06.** Disconnecting reports success exactly for live handles, removes exactly that
connection, and changes nothing otherwise. -/
theorem C06_disconnect_exact (s : Handler) (hr : Reachable s) (h : Nat) (b : Bool) (s' : Handler)
    (hd : disconnect s h = .ok b s') :
    (b = true ↔ ∃ c, (h, c) ∈ live s) ∧
    (∀ h' c, (h', c) ∈ live s' ↔ (h', c) ∈ live s ∧ h' ≠ h) ∧
    (b = false → s' = s) := by
  have hi := reachable_inv hr
  have hu := C05_handle_in_range s hr
  unfold disconnect at hd
  by_cases h1 : hasSco s h
  · simp only [h1, if_true, Res.ok.injEq] at hd
    obtain ⟨rfl, rfl⟩ := hd
    have h1' : h ∈ keys s.sco := (find_isSome_iff _ _).mp h1
    have hr1 := hi.sco.range h h1'
    simp only [scoStart, scoEnd] at hr1
    obtain ⟨⟨k, c⟩, hm, rfl⟩ := List.mem_map.mp h1'
    refine ⟨⟨fun _ => ⟨.sco c, (mem_live_sco _ _ _).mpr hm⟩, fun _ => rfl⟩, ?_, by simp⟩
    intro h' c'
    cases c' with
    | acl c' =>
      rw [mem_live_acl, mem_live_acl]
      refine ⟨fun hm' => ⟨hm', ?_⟩, fun hm' => hm'.1⟩
      have := hu _ _ ((mem_live_acl _ _ _).mpr hm')
      simp only [InRange] at this
      omega
    | le c' =>
      rw [mem_live_le, mem_live_le]
      refine ⟨fun hm' => ⟨hm', ?_⟩, fun hm' => hm'.1⟩
      have := hu _ _ ((mem_live_le _ _ _).mpr hm')
      simp only [InRange] at this
      omega
    | sco c' => rw [mem_live_sco, mem_live_sco]; exact mem_erase _ _ _ _
  · simp only [h1] at hd
    have h1' : h ∉ keys s.sco := fun hc => h1 ((find_isSome_iff _ _).mpr hc)
    cases h2 : find s.acl h with
    | some c =>
      simp only [h2] at hd
      split at hd
      · simp at *
      · split at hd
        · simp at hd
        · simp only [Res.ok.injEq] at hd
          obtain ⟨rfl, rfl⟩ := hd
          have hm := find_mem _ _ _ h2
          have hr1 := hi.acl.range h (mem_keys hm)
          simp only [aclStart, aclEnd] at hr1
          refine ⟨⟨fun _ => ⟨.acl c, (mem_live_acl _ _ _).mpr hm⟩, fun _ => rfl⟩, ?_, by simp⟩
          intro h' c'
          cases c' with
          | sco c' =>
            rw [mem_live_sco, mem_live_sco]
            refine ⟨fun hm' => ⟨hm', ?_⟩, fun hm' => hm'.1⟩
            have := hu _ _ ((mem_live_sco _ _ _).mpr hm')
            simp only [InRange] at this
            omega
          | le c' =>
            rw [mem_live_le, mem_live_le]
            refine ⟨fun hm' => ⟨hm', ?_⟩, fun hm' => hm'.1⟩
            have := hu _ _ ((mem_live_le _ _ _).mpr hm')
            simp only [InRange] at this
            omega
          | acl c' => rw [mem_live_acl, mem_live_acl]; exact mem_erase _ _ _ _
    | none =>
      have h2' := (find_none_iff _ _).mp h2
      simp only [h2] at hd
      by_cases h3 : hasLe s h
      · simp only [h3, if_true] at hd
        simp only [Bool.false_eq_true, if_false, Res.ok.injEq] at hd
        obtain ⟨rfl, rfl⟩ := hd
        have h3' : h ∈ keys s.le := (find_isSome_iff _ _).mp h3
        obtain ⟨⟨k, c⟩, hm, rfl⟩ := List.mem_map.mp h3'
        refine ⟨⟨fun _ => ⟨.le c, (mem_live_le _ _ _).mpr hm⟩, fun _ => rfl⟩, ?_, by simp⟩
        intro h' c'
        cases c' with
        | sco c' =>
          rw [mem_live_sco, mem_live_sco]
          exact ⟨fun hm' => ⟨hm', fun he => h1' (he ▸ mem_keys hm')⟩, fun hm' => hm'.1⟩
        | acl c' =>
          rw [mem_live_acl, mem_live_acl]
          exact ⟨fun hm' => ⟨hm', fun he => h2' (he ▸ mem_keys hm')⟩, fun hm' => hm'.1⟩
        | le c' => rw [mem_live_le, mem_live_le]; exact mem_erase _ _ _ _
      · have h3' : h ∉ keys s.le := fun hc => h3 ((find_isSome_iff _ _).mpr hc)
        simp only [h3, Bool.false_eq_true, if_false, Res.ok.injEq] at hd
        obtain ⟨rfl, rfl⟩ := hd
        have hno : ∀ c, (h, c) ∉ live s := by
          intro c hm
          have : h ∈ (live s).map (·.1) := List.mem_map.mpr ⟨_, hm, rfl⟩
          rw [live_handles] at this
          simp [h1', h2', h3'] at this
        refine ⟨by simp [hno], ?_, fun _ => rfl⟩
        intro h' c'
        exact ⟨fun hm => ⟨hm, fun he => hno c' (he ▸ hm)⟩, fun hm => hm.1⟩

/-- **C06.** `Disconnect` terminates, and aborts exactly when asked to drop an ACL link whose peer
still has a SCO connection. -/
theorem C06_disconnect_aborts_iff (s : Handler) (hr : Reachable s) (h : Nat) :
    disconnect s h ≠ .hang ∧
    (disconnect s h = .abort ↔ ∃ c h' c', (h, Conn.acl c) ∈ live s ∧ (h', Conn.sco c') ∈ live s ∧
      c'.address = c.address) := by
  have hi := reachable_inv hr
  have key : ∀ a, (getScoHandle s a).isSome = true ↔ ∃ h' c', (h', c') ∈ s.sco ∧ c'.address = a := by
    intro a
    unfold getScoHandle
    cases hf : firstWith (fun c => decide (c.address = a)) s.sco with
    | none =>
      have := (firstWith_none _ _).mp hf
      simp only [Option.map_none, Option.isSome_none, Bool.false_eq_true, false_iff]
      rintro ⟨h', c', hm, he⟩
      simpa [he] using this h' c' hm
    | some e =>
      obtain ⟨h', c'⟩ := e
      have := firstWith_some _ _ _ _ hf
      simp only [Option.map_some, Option.isSome_some, true_iff]
      exact ⟨h', c', this.1, by simpa using this.2⟩
  constructor
  · unfold disconnect
    split
    · simp
    · split
      · split <;> simp
      · split <;> simp
  · simp only [mem_live_acl, mem_live_sco]
    unfold disconnect
    by_cases h1 : hasSco s h
    · simp only [h1, if_true]
      simp only [reduceCtorEq, false_iff]
      rintro ⟨c, h', c', hm, -⟩
      have r1 := hi.sco.range h ((find_isSome_iff _ _).mp h1)
      have r2 := hi.acl.range h (mem_keys hm)
      simp only [scoStart, scoEnd, aclStart, aclEnd] at r1 r2
      omega
    · simp only [h1]
      rw [if_neg (by simp)]
      cases h2 : find s.acl h with
      | some c =>
        have hm := find_mem _ _ _ h2
        by_cases h3 : (getScoHandle s c.address).isSome = true
        · simp only [h3, if_true, true_iff]
          obtain ⟨h', c', hm', he⟩ := (key _).mp h3
          exact ⟨c, h', c', hm, hm', he⟩
        · simp only [h3]
          constructor
          · simp
          · rintro ⟨d, h', c', hm1, hm2, he⟩
            have := mem_find _ hi.acl.nodup _ _ hm1
            rw [h2] at this
            cases this
            exact absurd ((key _).mpr ⟨h', c', hm2, he⟩) h3
      | none =>
        have h2' := (find_none_iff _ _).mp h2
        constructor
        · simp only
          split <;> simp
        · rintro ⟨c, -, -, hm, -⟩
          exact absurd (mem_keys hm) h2'

/-- **C06.** The lookups by handle answer exactly for the live handles of each kind. -/
theorem C06_lookup_by_handle (s : Handler) (h : Nat) :
    (hasAcl s h = true ↔ ∃ c, (h, Conn.acl c) ∈ live s) ∧
    (hasLe s h = true ↔ ∃ c, (h, Conn.le c) ∈ live s) ∧
    (hasSco s h = true ↔ ∃ c, (h, Conn.sco c) ∈ live s) := by
  have aux : ∀ {C : Type} (t : Table C), h ∈ keys t ↔ ∃ c, (h, c) ∈ t := by
    intro C t
    simp [keys]
  simp only [mem_live_acl, mem_live_le, mem_live_sco, hasAcl, hasLe, hasSco, find_isSome_iff, aux,
    and_self]

/-- **C06.** The lookups by address return a live connection with that address, and `none` exactly
when there is none. -/
theorem C06_lookup_by_address (s : Handler) :
    (∀ a h, getAclHandle s a = some h → ∃ c, (h, Conn.acl c) ∈ live s ∧ c.address = a) ∧
    (∀ a, getAclHandle s a = none ↔ ∀ h c, (h, Conn.acl c) ∈ live s → c.address ≠ a) ∧
    (∀ a h, getScoHandle s a = some h → ∃ c, (h, Conn.sco c) ∈ live s ∧ c.address = a) ∧
    (∀ a, getScoHandle s a = none ↔ ∀ h c, (h, Conn.sco c) ∈ live s → c.address ≠ a) ∧
    (∀ l r h, getLeHandle s l r = some h →
      ∃ c, (h, Conn.le c) ∈ live s ∧ c.address.address = r ∧ c.own.address = l) ∧
    (∀ l r, getLeHandle s l r = none ↔
      ∀ h c, (h, Conn.le c) ∈ live s → ¬ (c.address.address = r ∧ c.own.address = l)) := by
  have some_of : ∀ {C : Type} (p : C → Bool) (t : Table C) h,
      (firstWith p t).map (·.1) = some h → ∃ c, (h, c) ∈ t ∧ p c = true := by
    intro C p t h hf
    cases he : firstWith p t with
    | none => simp [he] at hf
    | some e =>
      obtain ⟨k, c⟩ := e
      simp [he] at hf
      subst hf
      exact ⟨c, firstWith_some _ _ _ _ he⟩
  have none_of : ∀ {C : Type} (p : C → Bool) (t : Table C),
      (firstWith p t).map (·.1) = none ↔ ∀ h c, (h, c) ∈ t → p c = false := by
    intro C p t
    rw [← firstWith_none]
    cases firstWith p t <;> simp
  simp only [mem_live_acl, mem_live_le, mem_live_sco, getAclHandle, getScoHandle, getLeHandle]
  refine ⟨?_, ?_, ?_, ?_, ?_, ?_⟩
  · intro a h hf; obtain ⟨c, h1, h2⟩ := some_of _ _ _ hf; exact ⟨c, h1, by simpa using h2⟩
  · intro a; rw [none_of]; simp
  · intro a h hf; obtain ⟨c, h1, h2⟩ := some_of _ _ _ hf; exact ⟨c, h1, by simpa using h2⟩
  · intro a; rw [none_of]; simp
  · intro l r h hf
    obtain ⟨c, h1, h2⟩ := some_of _ _ _ hf
    exact ⟨c, h1, by simpa using h2⟩
  · intro l r; rw [none_of]; simp

/-- **C06.** A peer has a pending SCO request only if there is a SCO connection with its address that waits for
an answer on either side, and it has one if its SCO connections are all in that state. -/
theorem C06_pending_sco (s : Handler) (a : Address) :
    (hasPendingSco s a = true → ∃ h c, (h, Conn.sco c) ∈ live s ∧ c.address = a ∧
      (c.state = .pending ∨ c.state = .sentEsco ∨ c.state = .sentSco)) ∧
    ((∃ h c, (h, Conn.sco c) ∈ live s ∧ c.address = a) →
      (∀ h c, (h, Conn.sco c) ∈ live s → c.address = a →
        c.state = .pending ∨ c.state = .sentEsco ∨ c.state = .sentSco) →
      hasPendingSco s a = true) := by
  simp only [mem_live_sco, hasPendingSco]
  cases hf : firstWith (fun c => decide (c.address = a)) s.sco with
  | none =>
    have hn := (firstWith_none _ _).mp hf
    refine ⟨by simp, ?_⟩
    rintro ⟨h, c, hm, ha⟩
    simpa [ha] using hn h c hm
  | some e =>
    obtain ⟨h, c⟩ := e
    obtain ⟨hm, ha⟩ := firstWith_some _ _ _ _ hf
    have ha : c.address = a := by simpa using ha
    refine ⟨fun hp => ⟨h, c, hm, ha, by simpa [or_assoc] using hp⟩, ?_⟩
    intro _ hall
    simpa [or_assoc] using hall h c hm ha

/-- **C06.** Cancelling the SCO request of a peer removes exactly the SCO connection found under the
peer's address (nothing if there is none); it aborts exactly when that connection is streaming. -/
theorem C06_cancel_pending_sco (s : Handler) (hr : Reachable s) (a : Address) :
    (getScoHandle s a = none → cancelPendingSco s a = .ok () s) ∧
    (∀ h, getScoHandle s a = some h → ∃ c, (h, Conn.sco c) ∈ live s ∧ c.address = a ∧
      ((cancelPendingSco s a = .abort ∧ c.stream = true) ∨
       (c.stream = false ∧ ∃ s', cancelPendingSco s a = .ok () s' ∧
        ∀ h' c', (h', c') ∈ live s' ↔ (h', c') ∈ live s ∧ h' ≠ h))) := by
  have hi := reachable_inv hr
  unfold getScoHandle cancelPendingSco
  cases hf : firstWith (fun c => decide (c.address = a)) s.sco with
  | none => simp
  | some e =>
    obtain ⟨k, c⟩ := e
    obtain ⟨hm, ha⟩ := firstWith_some _ _ _ _ hf
    refine ⟨by simp, ?_⟩
    intro h hh
    simp only [Option.map_some, Option.some.injEq] at hh
    subst hh
    refine ⟨c, (mem_live_sco _ _ _).mpr hm, by simpa using ha, ?_⟩
    by_cases hst : c.stream = true
    · left; simp [hst]
    · right
      refine ⟨by simpa using hst, { s with sco := erase s.sco k }, by simp [hst], ?_⟩
      have r1 := hi.sco.range k (mem_keys hm)
      simp only [scoStart, scoEnd] at r1
      intro h' c'
      cases c' with
      | sco c' => rw [mem_live_sco, mem_live_sco]; exact mem_erase _ _ _ _
      | acl c' =>
        rw [mem_live_acl, mem_live_acl]
        refine ⟨fun hm' => ⟨hm', ?_⟩, fun hm' => hm'.1⟩
        have := hi.acl.range h' (mem_keys hm')
        simp only [aclStart, aclEnd] at this
        omega
      | le c' =>
        rw [mem_live_le, mem_live_le]
        refine ⟨fun hm' => ⟨hm', ?_⟩, fun hm' => hm'.1⟩
        have := hi.le.range h' (mem_keys hm')
        simp only [leStart, leEnd] at this
        omega

/-- **C06.** Accepting the SCO request of a peer opens (or, if the negotiation failed, closes) exactly the
SCO connection found under the peer's address: the handles stay, every other connection is untouched. -/
theorem C06_accept_pending_sco (s : Handler) (a : Address) (n b : Bool) (s' : Handler)
    (hc : acceptPendingSco s a n = .ok b s') :
    (live s').map (·.1) = (live s).map (·.1) ∧
    (b = true ↔ n = true ∧ (getScoHandle s a).isSome = true) ∧
    (getScoHandle s a = none → s' = s) ∧
    ∀ h, getScoHandle s a = some h →
      (∃ c, (h, Conn.sco c) ∈ live s ∧ c.address = a ∧
        (h, Conn.sco { c with state := if n then .opened else .closed, stream := if n then c.spoofed else c.stream }) ∈ live s') ∧
      ∀ h' c', h' ≠ h → ((h', c') ∈ live s' ↔ (h', c') ∈ live s) := by
  unfold acceptPendingSco at hc
  unfold getScoHandle
  cases hf : firstWith (fun c => decide (c.address = a)) s.sco with
  | none =>
    simp only [hf, Res.ok.injEq] at hc
    obtain ⟨rfl, rfl⟩ := hc
    simp
  | some e =>
    obtain ⟨k, c⟩ := e
    obtain ⟨hm, ha⟩ := firstWith_some _ _ _ _ hf
    simp only [hf] at hc
    have main : ∀ c1 : ScoConn, s' = { s with sco := setSco s.sco k c1 } →
        (live s').map (·.1) = (live s).map (·.1) ∧ (k, Conn.sco c1) ∈ live s' ∧
        ∀ h' c', h' ≠ k → ((h', c') ∈ live s' ↔ (h', c') ∈ live s) := by
      rintro c1 rfl
      refine ⟨by simp only [live_handles, keys_setSco], ?_, ?_⟩
      · rw [mem_live_sco, mem_setSco _ _ _ _ _ c hm]; exact Or.inl ⟨rfl, rfl⟩
      · intro h' c' hne
        cases c' with
        | sco c' =>
          rw [mem_live_sco, mem_live_sco, mem_setSco _ _ _ _ _ c hm]
          simp [hne]
        | acl c' => rw [mem_live_acl, mem_live_acl]
        | le c' => rw [mem_live_le, mem_live_le]
    cases n with
    | true =>
      simp only [if_true] at hc
      unfold startStream at hc
      by_cases hst : c.stream = true
      · simp [hst] at hc
      · simp only [hst] at hc
        simp only [Bool.false_eq_true, if_false, Res.ok.injEq] at hc
        obtain ⟨rfl, hs⟩ := hc
        obtain ⟨m1, m2, m3⟩ := main _ hs.symm
        refine ⟨m1, by simp, by simp, ?_⟩
        intro h hh
        simp only [Option.map_some, Option.some.injEq] at hh
        subst hh
        exact ⟨⟨c, (mem_live_sco _ _ _).mpr hm, by simpa using ha, m2⟩, m3⟩
    | false =>
      simp only [Bool.false_eq_true, if_false, Res.ok.injEq] at hc
      obtain ⟨rfl, hs⟩ := hc
      obtain ⟨m1, m2, m3⟩ := main _ hs.symm
      refine ⟨m1, by simp, by simp, ?_⟩
      intro h hh
      simp only [Option.map_some, Option.some.injEq] at hh
      subst hh
      exact ⟨⟨c, (mem_live_sco _ _ _).mpr hm, by simpa using ha, m2⟩, m3⟩

/-! A reachable state with a connection of each kind, on which the theorems above bite. -/

def peer : Address := ⟨1, 2, 3, 4, 5, 6⟩
def peer2 : Address := ⟨9, 2, 3, 4, 5, 6⟩
def exampleOps : List Op :=
  [.createAcl peer Address.empty, .createAcl peer2 Address.empty,
   .createLe ⟨peer2, 0⟩ ⟨peer2, 0⟩ ⟨Address.empty, 0⟩ .peripheral,
   .createSco peer .pending true false, .disconnect 1, .createAcl peer2 Address.empty]

example : (run Handler.init exampleOps).map (fun s => (live s).map (·.1)) =
    some [2, 0, 0x100, 0x200] := by decide +kernel

example : (run Handler.init exampleOps).map (fun s => (hasPendingSco s peer, hasPendingSco s peer2)) =
    some (true, false) := by decide +kernel

example : (run Handler.init exampleOps).map (fun s => match disconnect s 0 with | .abort => true | _ => false) =
    some true := by decide +kernel

example : (run Handler.init exampleOps).map
    (fun s => match disconnect s 0x100 with | .ok b s' => (b, (live s').map (·.1)) | _ => (false, [])) =
    some (true, [2, 0, 0x200]) := by decide +kernel

end Verif.Conn
