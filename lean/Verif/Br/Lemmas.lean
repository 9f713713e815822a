import Verif.Br.Spec
import Verif.Conn.Lemmas
/-!
# Lemmas about the tables of a BR/EDR controller
-/
namespace Verif.Br
open Verif.Conn (Table find erase firstWith getUnusedHandle ScoState keys Sound)

variable {C : Type}

theorem firstWith_find? (p : C → Bool) (t : Table C) : firstWith p t = t.find? (fun e => p e.2) := by
  induction t with
  | nil => rfl
  | cons e t ih =>
    obtain ⟨k, c⟩ := e
    simp only [firstWith, List.find?_cons]
    cases p c <;> simp [ih]

theorem aclOf_find? (s : Ctl) (a : Nat) : aclOf s a = s.acl.find? (fun e => e.2.addr = a) :=
  firstWith_find? _ _

theorem scoOf_find? (t : Table Syn) (a : Nat) : scoOf t a = t.find? (fun e => e.2.addr = a) :=
  firstWith_find? _ _

theorem aclOf_some {s : Ctl} {a h : Nat} {c : Acl} (hf : aclOf s a = some (h, c)) : (h, c) ∈ s.acl ∧ c.addr = a := by
  have := Conn.firstWith_some _ _ _ _ hf
  simpa using this

theorem aclOf_none {s : Ctl} {a : Nat} : aclOf s a = none ↔ a ∉ peers s := by
  unfold aclOf peers
  rw [Conn.firstWith_none]
  simp only [decide_eq_false_iff_not, List.mem_map, Prod.exists, not_exists, not_and]

theorem aclOf_isSome {s : Ctl} {a : Nat} : (aclOf s a).isSome = true ↔ a ∈ peers s := by
  have := @aclOf_none s a
  cases h : aclOf s a <;> simp [h] at this ⊢ <;> exact this

theorem scoOf_some {t : Table Syn} {a h : Nat} {c : Syn} (hf : scoOf t a = some (h, c)) : (h, c) ∈ t ∧ c.addr = a := by
  have := Conn.firstWith_some _ _ _ _ hf
  simpa using this

theorem syncs_zero {s : Ctl} {a : Nat} : syncs s a = 0 ↔ scoOf s.sco a = none := by
  unfold syncs scoOf
  rw [Conn.firstWith_none, List.length_eq_zero_iff, List.filter_eq_nil_iff]
  simp

theorem keys_update (t : Table C) (h : Nat) (c : C) : keys (update t h c) = keys t := by
  unfold keys update
  rw [List.map_map]
  apply List.map_congr_left
  intro e _
  simp only [Function.comp_apply]
  split
  · rename_i h
    exact h.symm
  · rfl

/-- An assignment that keeps a field keeps all the values of the field. -/
theorem map_update {D : Type} (f : C → D) (t : Table C) (h : Nat) (c : C) (hk : ∀ c', (h, c') ∈ t → f c' = f c) :
    (update t h c).map (fun e => f e.2) = t.map (fun e => f e.2) := by
  unfold update
  rw [List.map_map]
  apply List.map_congr_left
  intro e he
  simp only [Function.comp_apply]
  split
  · rename_i h1
    obtain ⟨k, d⟩ := e
    simp only at h1
    subst h1
    exact (hk d he).symm
  · rfl

theorem unique {t : Table C} (hn : (keys t).Nodup) {h : Nat} {c d : C} (h1 : (h, c) ∈ t) (h2 : (h, d) ∈ t) : c = d := by
  have a := Conn.mem_find t hn h c h1
  rw [Conn.mem_find t hn h d h2] at a
  injection a with a
  exact a.symm

theorem mem_update {t : Table C} {h k : Nat} {c d : C} (hm : (k, d) ∈ update t h c) :
    (k = h ∧ d = c) ∨ (k ≠ h ∧ (k, d) ∈ t) := by
  unfold update at hm
  rw [List.mem_map] at hm
  obtain ⟨⟨k', d'⟩, h1, h2⟩ := hm
  simp only at h2
  split at h2
  · cases h2
    exact .inl ⟨rfl, rfl⟩
  · rename_i h3
    cases h2
    exact .inr ⟨h3, h1⟩

theorem find?_same {α : Type} (p q : α → Bool) (l : List α) (h : ∀ x ∈ l, p x = q x) : l.find? p = l.find? q := by
  induction l with
  | nil => rfl
  | cons x l ih =>
    rw [List.find?_cons, List.find?_cons, h x List.mem_cons_self, ih (fun y hy => h y (List.mem_cons_of_mem _ hy))]

/-- The first entry with a property that an assignment keeps. -/
theorem find?_update {t : Table C} (hn : (keys t).Nodup) {h : Nat} {c c0 : C} (h0 : (h, c0) ∈ t) (p : C → Bool)
    (hp : p c = p c0) :
    (update t h c).find? (fun e => p e.2) =
      (t.find? (fun e => p e.2)).map (fun e => if e.1 = h then (h, c) else e) := by
  unfold update
  rw [List.find?_map]
  congr 1
  apply find?_same
  intro e he
  simp only [Function.comp_apply]
  split
  · rename_i h1
    obtain ⟨k, d⟩ := e
    simp only at h1
    subst h1
    have := unique hn he h0
    subst this
    exact hp
  · rfl

/-! ## The invariant -/

/-- What is always true of a controller when nobody uses the empty address. -/
structure Inv (s : Ctl) : Prop where
  sound : Sound s.acl 0 255
  last : s.lastAcl ≤ 255
  nodup : (peers s).Nodup
  few : s.acl.length ≤ 7
  lm : s.lm.Perm (peers s)
  zero : 0 ∉ peers s
  page : ∀ p, s.page = some p → p.addr ∉ peers s ∧ p.addr ≠ 0
  scan : ∀ p, s.scan = some p → p.addr ≠ 0
  ssound : Sound s.sco 256 511
  slast : 256 ≤ s.lastSco ∧ s.lastSco ≤ 511
  stream : ∀ h c, (h, c) ∈ s.sco → c.stream = true → c.state = .opened

/-- A change that does not concern the connections. -/
theorem Inv.same {s s' : Ctl} (hi : Inv s) (h1 : s'.acl = s.acl) (h2 : s'.sco = s.sco) (h3 : s'.lastAcl = s.lastAcl)
    (h4 : s'.lastSco = s.lastSco) (h5 : s'.lm = s.lm) (h6 : ∀ p, s'.page = some p → p.addr ∉ peers s ∧ p.addr ≠ 0)
    (h7 : ∀ p, s'.scan = some p → p.addr ≠ 0) : Inv s' := by
  have hp : peers s' = peers s := by
    unfold peers
    rw [h1]
  refine ⟨by rw [h1]; exact hi.sound, by rw [h3]; exact hi.last, by rw [hp]; exact hi.nodup, by rw [h1]; exact hi.few,
    by rw [h5, hp]; exact hi.lm, by rw [hp]; exact hi.zero, by rw [hp]; exact h6, h7, by rw [h2]; exact hi.ssound,
    by rw [h4]; exact hi.slast, by rw [h2]; exact hi.stream⟩

theorem Inv.lmLength {s : Ctl} (hi : Inv s) : s.lm.length = s.acl.length := by
  rw [hi.lm.length_eq]
  unfold peers
  rw [List.length_map]

/-- An assignment to an entry of the connection table that keeps its address. -/
theorem Inv.setAcl {s : Ctl} (hi : Inv s) {h : Nat} {c c0 : Acl} (hm : (h, c0) ∈ s.acl) (ha : c.addr = c0.addr) :
    Inv { s with acl := update s.acl h c } ∧ peers { s with acl := update s.acl h c } = peers s := by
  have hp : peers { s with acl := update s.acl h c } = peers s := by
    unfold peers
    refine map_update Acl.addr _ _ _ ?_
    intro c' hc'
    rw [unique hi.sound.nodup hc' hm, ha]
  refine ⟨⟨⟨?_, ?_⟩, hi.last, by rw [hp]; exact hi.nodup, ?_, by rw [hp]; exact hi.lm, by rw [hp]; exact hi.zero,
    by rw [hp]; exact hi.page, hi.scan, hi.ssound, hi.slast, hi.stream⟩, hp⟩
  · rw [keys_update]
    exact hi.sound.nodup
  · rw [keys_update]
    exact hi.sound.range
  · simp only [update, List.length_map]
    exact hi.few

theorem touch_inv {s : Ctl} (hi : Inv s) (now src : Nat) : Inv (touch s now src) ∧ peers (touch s now src) = peers s := by
  unfold touch
  split
  · exact ⟨hi, rfl⟩
  · rename_i h c hf
    exact hi.setAcl (c0 := c) (aclOf_some hf).1 rfl

theorem touch_eq (s : Ctl) (now src : Nat) : touch s now src = { s with acl := (touch s now src).acl } := by
  unfold touch
  split <;> rfl

/-- The synchronous table is replaced by one that satisfies the invariant. -/
theorem Inv.setSco {s : Ctl} (hi : Inv s) {t : Table Syn} (h1 : Sound t 256 511)
    (h2 : ∀ h c, (h, c) ∈ t → c.stream = true → c.state = .opened) : Inv { s with sco := t } :=
  ⟨hi.sound, hi.last, hi.nodup, hi.few, hi.lm, hi.zero, hi.page, hi.scan, h1, hi.slast, h2⟩

theorem sound_erase {t : Table C} {a b : Nat} (hs : Sound t a b) (h : Nat) : Sound (erase t h) a b := by
  refine ⟨Conn.nodup_erase _ _ hs.nodup, ?_⟩
  intro k hk
  rw [Conn.keys_erase, List.mem_filter] at hk
  exact hs.range k hk.1

theorem sound_update {t : Table C} {a b : Nat} (hs : Sound t a b) (h : Nat) (c : C) : Sound (update t h c) a b := by
  refine ⟨?_, ?_⟩ <;> rw [keys_update]
  · exact hs.nodup
  · exact hs.range

theorem Inv.eraseSco {s : Ctl} (hi : Inv s) (h : Nat) : Inv { s with sco := erase s.sco h } :=
  hi.setSco (sound_erase hi.ssound h) (fun k c hm => hi.stream k c ((Conn.mem_erase _ _ _ _).1 hm).1)

theorem Inv.updateSco {s : Ctl} (hi : Inv s) (h : Nat) (c : Syn) (hc : c.stream = true → c.state = .opened) :
    Inv { s with sco := update s.sco h c } := by
  refine hi.setSco (sound_update hi.ssound h c) ?_
  intro k d hm hd
  rcases mem_update hm with ⟨_, rfl⟩ | ⟨_, h1⟩
  · exact hc hd
  · exact hi.stream k d h1 hd

/-! ## Making and ending connections -/

theorem connect_ok {s : Ctl} (hi : Inv s) {now a : Nat} {role : Role} (ha : a ∉ peers s) (h0 : a ≠ 0) :
    (∃ h last, connect s now a role = .ok h { s with acl := (h, ⟨a, role, s.policy, now⟩) :: s.acl, lastAcl := last, lm := a :: s.lm } ∧
      h ∉ keys s.acl ∧ h ≤ 255 ∧ last ≤ 255 ∧ s.acl.length < 7) ∨
    (connect s now a role = .abort ∧ 7 ≤ s.acl.length) := by
  have hlen := hi.few
  have hsome : ∃ r, getUnusedHandle s.acl Conn.aclStart Conn.aclEnd s.lastAcl = some r := by
    refine (Conn.unused_isSome_iff _ _ _ _ (Nat.zero_le _) hi.last hi.sound).2 ?_
    omega
  obtain ⟨⟨h, last⟩, hr⟩ := hsome
  obtain ⟨h1, h2, h3, h4, h5, -⟩ := Conn.unused_some _ _ _ _ (Nat.zero_le _) hi.last _ _ hr
  unfold connect
  rw [hr]
  simp only [addLink]
  have hl := hi.lmLength
  by_cases h7 : s.lm.length ≥ 7
  · right
    rw [if_pos h7]
    exact ⟨rfl, by omega⟩
  · left
    rw [if_neg h7, if_neg h0]
    exact ⟨h, last, rfl, h1, h3, h5, by omega⟩

/-- A connection was made. -/
theorem Inv.connected {s : Ctl} (hi : Inv s) {a h last now : Nat} {role : Role} (ha : a ∉ peers s) (h0 : a ≠ 0)
    (hk : h ∉ keys s.acl) (hh : h ≤ 255) (hlast : last ≤ 255) (h7 : s.acl.length < 7) {page : Option Page}
    {scan : Option Scan} (hp : ∀ p, page = some p → s.page = some p ∧ p.addr ≠ a) (hs : ∀ p, scan = some p → s.scan = some p) :
    Inv { s with acl := (h, ⟨a, role, s.policy, now⟩) :: s.acl, lastAcl := last, lm := a :: s.lm, page := page, scan := scan } := by
  refine ⟨?_, hlast, ?_, ?_, ?_, ?_, ?_, fun p h => hi.scan p (hs p h), hi.ssound, hi.slast, hi.stream⟩
  · exact Conn.sound_cons _ _ _ _ _ hi.sound hk (Nat.zero_le _) hh
  · exact List.nodup_cons.2 ⟨ha, hi.nodup⟩
  · simp only [List.length_cons]
    omega
  · exact hi.lm.cons a
  · intro hm
    rcases List.mem_cons.1 hm with h | h
    · exact h0 h.symm
    · exact hi.zero h
  · intro p hpp
    obtain ⟨h1, h2⟩ := hp p hpp
    obtain ⟨h3, h4⟩ := hi.page p h1
    refine ⟨?_, h4⟩
    intro hm
    rcases List.mem_cons.1 hm with h | h
    · exact h2 h
    · exact h3 h

theorem peers_erase {s : Ctl} (hi : Inv s) {h : Nat} {c : Acl} (hm : (h, c) ∈ s.acl) :
    (erase s.acl h).map (fun e => e.2.addr) = (peers s).erase c.addr := by
  rw [hi.nodup.erase_eq_filter]
  unfold peers erase
  rw [List.filter_map]
  congr 1
  apply List.filter_congr
  intro e he
  simp only [Function.comp_apply, ne_eq, decide_not]
  obtain ⟨k, d⟩ := e
  by_cases hk : k = h
  · subst hk
    rw [unique hi.sound.nodup he hm]
    simp
  · have : d.addr ≠ c.addr := by
      intro hc
      apply hk
      have hn := hi.nodup
      unfold peers at hn
      have hinj := List.inj_on_of_nodup_map hn
      have := hinj he hm hc
      injection this
    simp [hk, this]

end Verif.Br
