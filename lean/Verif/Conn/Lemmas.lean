import Verif.Conn.Model
import Mathlib.Data.List.Nodup
import Mathlib.Data.List.Perm.Subperm
/-! Helper lemmas for the connection table. -/

namespace Verif.Conn

variable {C : Type}

/-- The handles of a table. -/
def keys (t : Table C) : List Nat := t.map (·.1)

theorem find_isSome_iff (t : Table C) (h : Nat) : (find t h).isSome = true ↔ h ∈ keys t := by
  induction t with
  | nil => simp [find, keys]
  | cons e t ih =>
    obtain ⟨k, c⟩ := e
    simp only [find, keys, List.map_cons, List.mem_cons] at *
    by_cases hk : k = h
    · simp [hk]
    · simp only [hk, if_false, ih]
      constructor
      · exact Or.inr
      · rintro (h1 | h1)
        · exact absurd h1.symm hk
        · exact h1

theorem find_none_iff (t : Table C) (h : Nat) : find t h = none ↔ h ∉ keys t := by
  rw [← find_isSome_iff]
  cases find t h <;> simp

theorem mem_keys {t : Table C} {h : Nat} {c : C} (hm : (h, c) ∈ t) : h ∈ keys t :=
  List.mem_map.mpr ⟨(h, c), hm, rfl⟩

theorem find_mem (t : Table C) (h : Nat) (c : C) (hf : find t h = some c) : (h, c) ∈ t := by
  induction t with
  | nil => simp [find] at hf
  | cons e t ih =>
    obtain ⟨k, d⟩ := e
    simp only [find] at hf
    by_cases hk : k = h
    · simp [hk] at hf
      simp [hk, hf]
    · simp only [hk, if_false] at hf
      exact List.mem_cons_of_mem _ (ih hf)

theorem mem_find (t : Table C) (hn : (keys t).Nodup) (h : Nat) (c : C) (hm : (h, c) ∈ t) :
    find t h = some c := by
  induction t with
  | nil => simp at hm
  | cons e t ih =>
    obtain ⟨k, d⟩ := e
    simp only [keys, List.map_cons, List.nodup_cons] at hn
    simp only [find]
    rcases List.mem_cons.mp hm with heq | hm
    · cases heq; simp
    · by_cases hk : k = h
      · subst hk; exact absurd (mem_keys hm) hn.1
      · simp only [hk, if_false]; exact ih hn.2 hm

theorem keys_erase (t : Table C) (h : Nat) : keys (erase t h) = (keys t).filter (fun k => k ≠ h) := by
  simp only [keys, erase, List.filter_map]
  rfl

theorem mem_erase (t : Table C) (h h' : Nat) (c : C) :
    (h', c) ∈ erase t h ↔ (h', c) ∈ t ∧ h' ≠ h := by
  simp [erase, List.mem_filter]

theorem nodup_erase (t : Table C) (h : Nat) (hn : (keys t).Nodup) : (keys (erase t h)).Nodup := by
  rw [keys_erase]
  exact hn.filter _

theorem firstWith_some (p : C → Bool) (t : Table C) (h : Nat) (c : C)
    (hf : firstWith p t = some (h, c)) : (h, c) ∈ t ∧ p c = true := by
  induction t with
  | nil => simp [firstWith] at hf
  | cons e t ih =>
    obtain ⟨k, d⟩ := e
    simp only [firstWith] at hf
    by_cases hp : p d = true
    · simp [hp] at hf
      obtain ⟨rfl, rfl⟩ := hf
      simp [hp]
    · simp only [hp] at hf
      obtain ⟨h1, h2⟩ := ih hf
      exact ⟨List.mem_cons_of_mem _ h1, h2⟩

theorem firstWith_none (p : C → Bool) (t : Table C) :
    firstWith p t = none ↔ ∀ h c, (h, c) ∈ t → p c = false := by
  induction t with
  | nil => simp [firstWith]
  | cons e t ih =>
    obtain ⟨k, d⟩ := e
    simp only [firstWith, List.mem_cons]
    by_cases hp : p d = true
    · simp only [hp, if_true]
      constructor
      · simp
      · intro h; have := h k d (Or.inl rfl); simp [hp] at this
    · simp only [hp]
      rw [show (if false = true then some (k, d) else firstWith p t) = firstWith p t by simp, ih]
      constructor
      · rintro h1 h2 c (heq | hm)
        · cases heq; simpa using hp
        · exact h1 _ _ hm
      · intro h1 h2 c hm; exact h1 _ _ (Or.inr hm)

theorem keys_setSco (t : Table ScoConn) (h : Nat) (c : ScoConn) : keys (setSco t h c) = keys t := by
  induction t with
  | nil => rfl
  | cons e t ih =>
    obtain ⟨k, d⟩ := e
    simp only [keys, setSco, List.map_cons, List.map_map] at *
    rw [ih]
    by_cases hk : k = h <;> simp [hk]

theorem mem_setSco (t : Table ScoConn) (h h' : Nat) (c c' d : ScoConn)
    (hm : (h, d) ∈ t) :
    (h', c') ∈ setSco t h c ↔ (h' = h ∧ c' = c) ∨ (h' ≠ h ∧ (h', c') ∈ t) := by
  simp only [setSco, List.mem_map]
  constructor
  · rintro ⟨⟨k, e⟩, hm', heq⟩
    by_cases hk : k = h
    · simp only [hk, if_true, Prod.mk.injEq] at heq
      exact Or.inl ⟨heq.1.symm, heq.2.symm⟩
    · simp only [hk, if_false, Prod.mk.injEq] at heq
      obtain ⟨rfl, rfl⟩ := heq
      exact Or.inr ⟨hk, hm'⟩
  · rintro (⟨rfl, rfl⟩ | ⟨hne, hm'⟩)
    · exact ⟨(h', d), hm, by simp⟩
    · exact ⟨(h', c'), hm', by simp [hne]⟩

/-! ## The search for an unused handle -/

/-- The handle tried after `last`. -/
def next (start stop last : Nat) : Nat := if last + 1 > stop then start else last + 1

/-- The `i`-th handle tried. -/
def tried (start stop last : Nat) : Nat → Nat
  | 0 => last
  | i + 1 => tried start stop (next start stop last) i

theorem search_some (t : Table C) (start stop : Nat) : ∀ (fuel last h : Nat),
    searchUnused t start stop last fuel = some h →
    find t h = none ∧ ∃ i, i ≤ fuel ∧ h = tried start stop last i ∧
      ∀ j, j < i → find t (tried start stop last j) ≠ none := by
  intro fuel
  induction fuel with
  | zero =>
    intro last h hs
    unfold searchUnused at hs
    split at hs
    · rename_i hf
      simp at hs; subst hs
      exact ⟨hf, 0, by omega, rfl, fun j hj => by omega⟩
    · simp at hs
  | succ fuel ih =>
    intro last h hs
    unfold searchUnused at hs
    split at hs
    · rename_i hf
      simp at hs; subst hs
      exact ⟨hf, 0, by omega, rfl, fun j hj => by omega⟩
    · rename_i c hf
      obtain ⟨h1, i, h2, h3, h4⟩ := ih _ _ hs
      refine ⟨h1, i + 1, by omega, h3, ?_⟩
      intro j hj
      cases j with
      | zero => simp [tried, hf]
      | succ j => exact h4 j (by omega)

theorem search_none (t : Table C) (start stop : Nat) : ∀ (fuel last : Nat),
    searchUnused t start stop last fuel = none →
    ∀ i, i ≤ fuel → find t (tried start stop last i) ≠ none := by
  intro fuel
  induction fuel with
  | zero =>
    intro last hs i hi
    unfold searchUnused at hs
    split at hs
    · simp at hs
    · rename_i c hf
      obtain rfl : i = 0 := by omega
      simp [tried, hf]
  | succ fuel ih =>
    intro last hs i hi
    unfold searchUnused at hs
    split at hs
    · simp at hs
    · rename_i c hf
      cases i with
      | zero => simp [tried, hf]
      | succ i => exact ih _ hs i (by omega)

theorem tried_range (start stop : Nat) (hss : start ≤ stop) : ∀ (i last : Nat),
    start ≤ last → last ≤ stop →
    start ≤ tried start stop last i ∧ tried start stop last i ≤ stop := by
  intro i
  induction i with
  | zero => intro last h1 h2; exact ⟨h1, h2⟩
  | succ i ih =>
    intro last h1 h2
    apply ih
    · unfold next; split <;> omega
    · unfold next; split <;> omega

theorem tried_add (start stop : Nat) : ∀ (i j last : Nat),
    tried start stop last (i + j) = tried start stop (tried start stop last i) j := by
  intro i
  induction i with
  | zero => intro j last; simp [tried]
  | succ i ih =>
    intro j last
    rw [show i + 1 + j = (i + j) + 1 by omega]
    simp only [tried]
    exact ih j _

theorem tried_nowrap (start stop : Nat) : ∀ (i last : Nat), last + i ≤ stop →
    tried start stop last i = last + i := by
  intro i
  induction i with
  | zero => intro last _; rfl
  | succ i ih =>
    intro last h
    simp only [tried, next]
    rw [if_neg (by omega), ih _ (by omega)]
    omega

/-- Every handle of the range is tried. -/
theorem tried_covers (start stop last x : Nat) (h1 : start ≤ last) (h2 : last ≤ stop)
    (h3 : start ≤ x) (h4 : x ≤ stop) :
    ∃ i, i ≤ stop - start ∧ tried start stop last i = x := by
  by_cases h : last ≤ x
  · exact ⟨x - last, by omega, by rw [tried_nowrap _ _ _ _ (by omega)]; omega⟩
  · refine ⟨(stop - last) + (1 + (x - start)), by omega, ?_⟩
    rw [tried_add, tried_nowrap start stop (stop - last) last (by omega), tried_add]
    have : tried start stop (last + (stop - last)) 1 = start := by
      simp only [tried, next]
      rw [if_pos (by omega)]
    rw [this, tried_nowrap _ _ _ _ (by omega)]
    omega

/-- A table is sound for a range: distinct handles, all in the range. -/
structure Sound (t : Table C) (start stop : Nat) : Prop where
  nodup : (keys t).Nodup
  range : ∀ h ∈ keys t, start ≤ h ∧ h ≤ stop

theorem length_le (t : Table C) (start stop : Nat) (hs : Sound t start stop) (x : Nat)
    (hx : start ≤ x ∧ x ≤ stop) (hn : x ∉ keys t) : t.length < stop - start + 1 := by
  have h1 : (x :: keys t).Nodup := List.nodup_cons.mpr ⟨hn, hs.nodup⟩
  have h2 : (x :: keys t) ⊆ List.range' start (stop - start + 1) := by
    intro y hy
    rw [List.mem_range'_1]
    rcases List.mem_cons.mp hy with rfl | hy
    · omega
    · have := hs.range y hy; omega
  have h3 := (List.subperm_of_subset h1 h2).length_le
  simp [keys] at h3
  omega

theorem length_ge (t : Table C) (start stop : Nat) (hss : start ≤ stop)
    (h : ∀ x, start ≤ x → x ≤ stop → x ∈ keys t) : stop - start + 1 ≤ t.length := by
  have h2 : List.range' start (stop - start + 1) ⊆ keys t := by
    intro y hy
    rw [List.mem_range'_1] at hy
    exact h y hy.1 (by omega)
  have h3 := (List.subperm_of_subset List.nodup_range' h2).length_le
  simpa [keys] using h3

theorem bound (t : Table C) (start stop : Nat) (hss : start ≤ stop) (hs : Sound t start stop) :
    t.length ≤ stop - start + 1 := by
  have h2 : keys t ⊆ List.range' start (stop - start + 1) := by
    intro y hy
    rw [List.mem_range'_1]
    have := hs.range y hy; omega
  have h3 := (List.subperm_of_subset hs.nodup h2).length_le
  simpa [keys] using h3

/-- What `GetUnusedHandle` guarantees. -/
theorem unused_some (t : Table C) (start stop last : Nat) (h1 : start ≤ last) (h2 : last ≤ stop)
    (h l' : Nat) (hg : getUnusedHandle t start stop last = some (h, l')) :
    h ∉ keys t ∧ start ≤ h ∧ h ≤ stop ∧ start ≤ l' ∧ l' ≤ stop ∧ l' = next start stop h ∧
    ∃ i, i ≤ stop - start + 1 ∧ h = tried start stop last i ∧
      ∀ j, j < i → tried start stop last j ∈ keys t := by
  unfold getUnusedHandle at hg
  split at hg
  · simp at hg
  · rename_i h' hs
    simp only [Option.some.injEq, Prod.mk.injEq] at hg
    obtain ⟨rfl, rfl⟩ := hg
    obtain ⟨hf, i, hi, rfl, hj⟩ := search_some _ _ _ _ _ _ hs
    obtain ⟨r1, r2⟩ := tried_range start stop (by omega) i last h1 h2
    refine ⟨(find_none_iff _ _).mp hf, r1, r2, ?_, ?_, rfl, i, hi, rfl, ?_⟩
    · split <;> omega
    · split <;> omega
    · intro j hji
      have := hj j hji
      rw [ne_eq, find_none_iff] at this
      simpa using this

theorem unused_isSome_iff (t : Table C) (start stop last : Nat) (h1 : start ≤ last)
    (h2 : last ≤ stop) (hs : Sound t start stop) :
    (∃ r, getUnusedHandle t start stop last = some r) ↔ t.length < stop - start + 1 := by
  constructor
  · rintro ⟨⟨h, l'⟩, hg⟩
    obtain ⟨a, b, c, -⟩ := unused_some t start stop last h1 h2 h l' hg
    exact length_le t start stop hs h ⟨b, c⟩ a
  · intro hlt
    cases hg : getUnusedHandle t start stop last with
    | some r => exact ⟨r, rfl⟩
    | none =>
      exfalso
      unfold getUnusedHandle at hg
      split at hg
      · rename_i hn
        have hall := search_none _ _ _ _ _ hn
        have := length_ge t start stop (by omega) (fun x hx1 hx2 => by
          obtain ⟨i, hi, rfl⟩ := tried_covers start stop last x h1 h2 hx1 hx2
          have := hall i (by omega)
          rw [ne_eq, find_none_iff] at this
          simpa using this)
        omega
      · simp at hg

theorem sound_cons (t : Table C) (start stop h : Nat) (c : C) (hs : Sound t start stop)
    (hn : h ∉ keys t) (h1 : start ≤ h) (h2 : h ≤ stop) : Sound ((h, c) :: t) start stop := by
  refine ⟨?_, ?_⟩
  · simp only [keys, List.map_cons, List.nodup_cons]
    exact ⟨hn, hs.nodup⟩
  · intro x hx
    simp only [keys, List.map_cons, List.mem_cons] at hx
    rcases hx with rfl | hx
    · exact ⟨h1, h2⟩
    · exact hs.range x hx

theorem sound_erase (t : Table C) (start stop h : Nat) (hs : Sound t start stop) :
    Sound (erase t h) start stop := by
  refine ⟨nodup_erase t h hs.nodup, ?_⟩
  intro x hx
  rw [keys_erase, List.mem_filter] at hx
  exact hs.range x hx.1

/-- Invariant of the handler. -/
structure Inv (s : Handler) : Prop where
  acl : Sound s.acl aclStart aclEnd
  sco : Sound s.sco scoStart scoEnd
  le : Sound s.le leStart leEnd
  lastAcl : aclStart ≤ s.lastAcl ∧ s.lastAcl ≤ aclEnd
  lastSco : scoStart ≤ s.lastSco ∧ s.lastSco ≤ scoEnd
  lastLe : leStart ≤ s.lastLe ∧ s.lastLe ≤ leEnd

theorem inv_init : Inv Handler.init := by
  refine ⟨⟨?_, ?_⟩, ⟨?_, ?_⟩, ⟨?_, ?_⟩, ?_, ?_, ?_⟩ <;>
    simp [Handler.init, keys, aclStart, aclEnd, scoStart, scoEnd, leStart, leEnd]

theorem inv_step (s s' : Handler) (op : Op) (hi : Inv s) (hs : step s op = some s') : Inv s' := by
  cases op with
  | createAcl a o =>
    simp only [step, createAcl] at hs
    split at hs <;> rename_i heq
    · split at heq <;> rename_i hg
      · simp at heq
      · simp only [Res.ok.injEq] at heq
        obtain ⟨-, rfl⟩ := heq
        simp at hs; subst hs
        obtain ⟨a1, a2, a3, a4, a5, -⟩ := unused_some _ _ _ _ hi.lastAcl.1 hi.lastAcl.2 _ _ hg
        exact ⟨sound_cons _ _ _ _ _ hi.acl a1 a2 a3, hi.sco, hi.le, ⟨a4, a5⟩, hi.lastSco, hi.lastLe⟩
    · simp at hs
  | createLe a r o role =>
    simp only [step, createLe] at hs
    split at hs <;> rename_i heq
    · split at heq <;> rename_i hg
      · simp at heq
      · simp only [Res.ok.injEq] at heq
        obtain ⟨-, rfl⟩ := heq
        simp at hs; subst hs
        obtain ⟨a1, a2, a3, a4, a5, -⟩ := unused_some _ _ _ _ hi.lastLe.1 hi.lastLe.2 _ _ hg
        exact ⟨hi.acl, hi.sco, sound_cons _ _ _ _ _ hi.le a1 a2 a3, hi.lastAcl, hi.lastSco, ⟨a4, a5⟩⟩
    · simp at hs
  | createSco a st sp l =>
    simp only [step, createSco] at hs
    split at hs <;> rename_i heq
    · split at heq <;> rename_i hg
      · simp at heq
      · simp only [Res.ok.injEq] at heq
        obtain ⟨-, rfl⟩ := heq
        simp at hs; subst hs
        obtain ⟨a1, a2, a3, a4, a5, -⟩ := unused_some _ _ _ _ hi.lastSco.1 hi.lastSco.2 _ _ hg
        exact ⟨hi.acl, sound_cons _ _ _ _ _ hi.sco a1 a2 a3, hi.le, hi.lastAcl, ⟨a4, a5⟩, hi.lastLe⟩
    · simp at hs
  | disconnect h =>
    simp only [step] at hs
    split at hs <;> rename_i heq
    · simp at hs; subst hs
      unfold disconnect at heq
      split at heq
      · simp only [Res.ok.injEq] at heq
        obtain ⟨-, rfl⟩ := heq
        exact ⟨hi.acl, sound_erase _ _ _ _ hi.sco, hi.le, hi.lastAcl, hi.lastSco, hi.lastLe⟩
      · split at heq
        · split at heq
          · simp at heq
          · simp only [Res.ok.injEq] at heq
            obtain ⟨-, rfl⟩ := heq
            exact ⟨sound_erase _ _ _ _ hi.acl, hi.sco, hi.le, hi.lastAcl, hi.lastSco, hi.lastLe⟩
        · split at heq
          · simp only [Res.ok.injEq] at heq
            obtain ⟨-, rfl⟩ := heq
            exact ⟨hi.acl, hi.sco, sound_erase _ _ _ _ hi.le, hi.lastAcl, hi.lastSco, hi.lastLe⟩
          · simp only [Res.ok.injEq] at heq
            obtain ⟨-, rfl⟩ := heq
            exact hi
    · simp at hs
  | cancelPendingSco a =>
    simp only [step] at hs
    split at hs <;> rename_i heq
    · simp at hs; subst hs
      unfold cancelPendingSco at heq
      split at heq
      · simp only [Res.ok.injEq] at heq
        obtain ⟨-, rfl⟩ := heq
        exact hi
      · split at heq
        · simp at heq
        · simp only [Res.ok.injEq] at heq
          obtain ⟨-, rfl⟩ := heq
          exact ⟨hi.acl, sound_erase _ _ _ _ hi.sco, hi.le, hi.lastAcl, hi.lastSco, hi.lastLe⟩
    · simp at hs
  | acceptPendingSco a n =>
    have hset : ∀ h c, Sound (setSco s.sco h c) scoStart scoEnd := by
      intro h c
      refine ⟨?_, ?_⟩
      · rw [keys_setSco]; exact hi.sco.nodup
      · rw [keys_setSco]; exact hi.sco.range
    simp only [step] at hs
    split at hs <;> rename_i heq
    · simp at hs; subst hs
      unfold acceptPendingSco at heq
      split at heq
      · simp only [Res.ok.injEq] at heq
        obtain ⟨-, rfl⟩ := heq
        exact hi
      · split at heq
        · split at heq
          · simp at heq
          · simp only [Res.ok.injEq] at heq
            obtain ⟨-, rfl⟩ := heq
            exact ⟨hi.acl, hset _ _, hi.le, hi.lastAcl, hi.lastSco, hi.lastLe⟩
        · simp only [Res.ok.injEq] at heq
          obtain ⟨-, rfl⟩ := heq
          exact ⟨hi.acl, hset _ _, hi.le, hi.lastAcl, hi.lastSco, hi.lastLe⟩
    · simp at hs
  | reset =>
    simp only [step, resetHandler, Option.some.injEq] at hs
    subst hs
    exact inv_init

theorem inv_run (ops : List Op) : ∀ (s s' : Handler), Inv s → run s ops = some s' → Inv s' := by
  induction ops with
  | nil => intro s s' hi hr; simp [run] at hr; exact hr ▸ hi
  | cons op ops ih =>
    intro s s' hi hr
    simp only [run] at hr
    split at hr
    · simp at hr
    · rename_i s1 h1
      exact ih s1 s' (inv_step s s1 op hi h1) hr

end Verif.Conn
