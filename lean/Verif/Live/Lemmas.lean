import Verif.Live.Model
import Verif.Task.Lemmas
/-! # Lemmas about the supervision of links -/
namespace Verif.Live
open Verif.Task (Task M Inv Asked)

/-- When the next check is due. -/
def Due (tr : Trace) (l : Link) (t : Int) : Prop :=
  t ≤ l.last + 1500000000 ∨
    (t ≤ l.last + 3000000000 ∧ ∃ p ∈ tr, p.2 = .pinged l.handle ∧ l.last + 1500000000 < p.1)

/-- The invariant, but for the next check of the connection `x`. -/
structure J (x : Option Nat) (s : S) (tr : Trace) : Prop where
  inv : Inv s.m
  since : since s.m ≤ s.m.clock
  handles : (s.links.map (·.handle)).Nodup
  past : ∀ e ∈ tr, e.1 ≤ s.m.clock
  began : ∀ e ∈ tr, ∀ n, e.2 = .ran n → n ≤ e.1
  last : ∀ l ∈ s.links, l.last ≤ s.m.clock ∧ (∃ e ∈ tr, sign l.handle e.2 = true ∧ e.1 = l.last) ∧
    ∀ e ∈ tr, sign l.handle e.2 = true → e.1 ≤ l.last
  live : ∀ h, alive h tr = s.links.any (fun l => l.handle = h)
  due : ∀ l ∈ s.links, x ≠ some l.handle → ∃ t ∈ s.m.queue, s.checks.lookup t.serial = some l.handle ∧ Due tr l t.time
  ran : ∀ l ∈ s.links, ∀ e ∈ tr, ∀ n, e.2 = .ran n → l.last + 1500000000 < n →
    ∃ p ∈ tr, p.2 = .pinged l.handle ∧ l.last + 1500000000 < p.1 ∧ p.1 ≤ e.1

/-- What is to be shown of each thing seen, after what was seen before. -/
def Good (pre : Trace) (e : Int × Seen) : Prop := match e.2 with
  | .ended h => alive h pre = true ∧ Silent h 3000000000 e.1 pre ∧
    ∀ r ∈ pre, ∀ n, r.2 = .ran n → Silent h 1500000000 n pre →
      ∃ p ∈ pre, p.2 = .pinged h ∧ p.1 ≤ r.1 ∧ Silent h 1500000000 p.1 pre
  | .pinged h => alive h pre = true ∧ Silent h 1500000000 e.1 pre ∧ ¬Silent h 3000000000 e.1 pre
  | .ran n => ∀ h, alive h pre = true → ∃ x ∈ pre, sign h x.2 = true ∧ n < x.1 + 3000000000
  | _ => True

/-- The same of everything seen. -/
def AllGood (tr : Trace) : Prop := ∀ pre e post, tr = pre ++ e :: post → Good pre e

theorem allGood_nil : AllGood [] := by
  intro pre e post h
  simp at h

theorem allGood_snoc {tr : Trace} {e : Int × Seen} (h : AllGood tr) (he : Good tr e) : AllGood (tr ++ [e]) := by
  intro pre x post heq
  rcases List.eq_nil_or_concat post with rfl | ⟨post', y, rfl⟩
  · have := List.append_inj' heq rfl
    obtain ⟨rfl, h2⟩ := this
    cases h2
    exact he
  · rw [List.concat_eq_append] at heq
    have h2 : tr ++ [e] = (pre ++ x :: post') ++ [y] := by rw [heq]; simp
    have := List.append_inj' h2 rfl
    exact h _ _ _ this.1

/-! ## The queue -/

/-- What all actions on the queue but `pick` and `cancel` keep. -/
structure Keeps (m m' : M) : Prop where
  queue : ∀ y ∈ m.queue, y ∈ m'.queue
  clock : m.clock ≤ m'.clock
  requests : m.requests.length ≤ m'.requests.length
  inv : Inv m'
  since : since m' ≤ m'.clock

theorem since_step {m m' : M} {a : Task.Action} (h0 : Live.since m ≤ m.clock) (h : Task.step m a = some m') :
    Live.since m' ≤ m'.clock := by
  cases a with
  | wait d =>
    cases h
    show Live.since { m with clock := m.clock + (d : Int) } ≤ m.clock + (d : Int)
    cases hp : m.phase with
    | idle => simp only [Live.since, hp]; exact Int.le_refl _
    | loop now => simp only [Live.since, hp] at *; omega
    | callback now t => simp only [Live.since, hp] at *; omega
  | schedule delay period =>
    simp only [Task.step] at h
    split at h
    · cases h
    · cases h; exact h0
  | cancel id => cases h; exact h0
  | run =>
    simp only [Task.step] at h
    split at h
    · cases h; exact Int.le_refl _
    · cases h
  | pick =>
    simp only [Task.step] at h
    split at h
    · rename_i now t q hp hq
      split at h
      · cases h
      · cases h
        simpa only [Live.since, hp] using h0
    · cases h
  | finish =>
    simp only [Task.step] at h
    split at h
    · rename_i now t hp
      split at h
      · cases h; simpa only [Live.since, hp] using h0
      · cases h; simpa only [Live.since, hp] using h0
    · cases h
  | done =>
    simp only [Task.step] at h
    split at h
    · cases h; exact Int.le_refl _
    · split at h
      · cases h; exact Int.le_refl _
      · cases h
    · cases h

/-- The actions that keep all tasks. -/
def tame : Task.Action → Bool
  | .pick => false
  | .cancel _ => false
  | _ => true

theorem keeps {m m' : M} {a : Task.Action} (hi : Inv m) (h0 : Live.since m ≤ m.clock) (ha : tame a = true)
    (h : Task.step m a = some m') : Keeps m m' := by
  have h1 := Task.inv_step hi h
  have h2 := since_step h0 h
  have h3 : m.requests.length ≤ m'.requests.length := by
    obtain ⟨x, hx⟩ := Task.step_requests h
    rw [hx, List.length_append]
    omega
  refine ⟨?_, ?_, h3, h1, h2⟩
  · cases a with
    | pick => cases ha
    | cancel => cases ha
    | wait d => cases h; exact fun y hy => hy
    | schedule delay period =>
      simp only [Task.step] at h
      split at h
      · cases h
      · cases h; exact fun y hy => Task.subset_insert _ _ y hy
    | run =>
      simp only [Task.step] at h
      split at h
      · cases h; exact fun y hy => hy
      · cases h
    | finish =>
      simp only [Task.step] at h
      split at h
      · split at h
        · cases h; exact fun y hy => hy
        · cases h; exact fun y hy => Task.subset_insert _ _ y hy
      · cases h
    | done =>
      simp only [Task.step] at h
      split at h
      · cases h; exact fun y hy => hy
      · split at h
        · cases h; exact fun y hy => hy
        · cases h
      · cases h
  · cases a with
    | pick => cases ha
    | cancel => cases ha
    | wait d => cases h; show m.clock ≤ m.clock + (d : Int); omega
    | schedule delay period =>
      simp only [Task.step] at h
      split at h
      · cases h
      · cases h; exact Int.le_refl _
    | run =>
      simp only [Task.step] at h
      split at h
      · cases h; exact Int.le_refl _
      · cases h
    | finish =>
      simp only [Task.step] at h
      split at h
      · split at h
        · cases h; exact Int.le_refl _
        · cases h; exact Int.le_refl _
      · cases h
    | done =>
      simp only [Task.step] at h
      split at h
      · cases h; exact Int.le_refl _
      · split at h
        · cases h; exact Int.le_refl _
        · cases h
      · cases h

/-- A tame action on the queue keeps the invariant. -/
theorem j_queue {x : Option Nat} {s s' : S} {tr : Trace} {a : Task.Action} (hj : J x s tr) (ha : tame a = true)
    (h : s.queue a = some s') : J x s' tr := by
  simp only [S.queue, Option.map_eq_some_iff] at h
  obtain ⟨m, hm, rfl⟩ := h
  have hk := keeps hj.inv hj.since ha hm
  refine ⟨hk.inv, hk.since, hj.handles, fun e he => ?_, hj.began, fun l hl => ?_, hj.live, fun l hl hx => ?_, hj.ran⟩
  · have := hj.past e he
    have := hk.clock
    show e.1 ≤ m.clock
    omega
  · obtain ⟨h1, h2, h3⟩ := hj.last l hl
    refine ⟨?_, h2, h3⟩
    have := hk.clock
    show l.last ≤ m.clock
    omega
  · obtain ⟨t, ht, hc, hd⟩ := hj.due l hl hx
    exact ⟨t, hk.queue t ht, hc, hd⟩

theorem serial_lt {m : M} (hi : Inv m) {t : Task} (ht : t ∈ m.queue) : t.serial < m.requests.length :=
  hi.lt (hi.asked t (List.mem_append_left _ ht))

/-- Scheduling the next check of `h`. -/
theorem j_schedule {h : Nat} {s s' : S} {tr : Trace} {delay : Int} (hj : J (some h) s tr)
    (hd : ∀ l ∈ s.links, l.handle = h → Due tr l (s.m.clock + delay)) (hs : s.schedule delay h = some s') :
    J none s' tr ∧ s'.m.clock = s.m.clock := by
  simp only [S.schedule] at hs
  split at hs
  · cases hs
  · rename_i m hm
    cases hs
    have hk := keeps hj.inv hj.since (a := .schedule delay none) rfl hm
    have hm' := hm
    simp only [Task.step] at hm'
    split at hm'
    · cases hm'
    · rename_i id c hid
      cases hm'
      refine ⟨⟨hk.inv, hk.since, hj.handles, hj.past, hj.began, hj.last, hj.live, fun l hl _ => ?_, hj.ran⟩, rfl⟩
      by_cases hh : l.handle = h
      · refine ⟨⟨s.m.requests.length, id, s.m.clock + delay, none⟩, ?_, ?_, hd l hl hh⟩
        · exact (Task.insert_perm _ (Task.nextId_fresh hid).2).mem_iff.mpr (by simp)
        · simp [List.lookup, hh]
      · obtain ⟨t, ht, hc, hd⟩ := hj.due l hl (by intro e; cases e; exact hh rfl)
        refine ⟨t, hk.queue t ht, ?_, hd⟩
        have := serial_lt hj.inv ht
        have hne : (t.serial == s.m.requests.length) = false := by
          rw [beq_eq_false_iff_ne]
          omega
        simp only [List.lookup, hne]
        exact hc

/-! ## What is seen -/

theorem alive_snoc (h : Nat) (tr : Trace) (t : Int) (e : Seen) : alive h (tr ++ [(t, e)]) = match e with
    | .connected k => if k = h then true else alive h tr
    | .ended k => if k = h then false else alive h tr
    | .closed k => if k = h then false else alive h tr
    | _ => alive h tr := by
  simp only [alive, List.foldl_append, List.foldl_cons, List.foldl_nil]
  cases e <;> rfl

theorem Due.mono {tr : Trace} {l : Link} {t : Int} (h : Due tr l t) (o : Trace) : Due (tr ++ o) l t := by
  rcases h with h | ⟨h, p, hp, h1, h2⟩
  · exact .inl h
  · exact .inr ⟨h, p, List.mem_append_left _ hp, h1, h2⟩

/-- Something is seen that is neither a connection nor its end, nor a sign of a peer. -/
theorem j_see {x : Option Nat} {s : S} {tr : Trace} {e : Seen} (hj : J x s tr)
    (hs : ∀ h, sign h e = false) (ha : ∀ h, alive h (tr ++ [(s.m.clock, e)]) = alive h tr)
    (hb : ∀ n, e = .ran n → n ≤ s.m.clock)
    (hr : ∀ l ∈ s.links, ∀ n, e = .ran n → l.last + 1500000000 < n →
      ∃ p ∈ tr, p.2 = .pinged l.handle ∧ l.last + 1500000000 < p.1) :
    J x s (tr ++ [(s.m.clock, e)]) := by
  refine ⟨hj.inv, hj.since, hj.handles, ?_, ?_, ?_, ?_, ?_, ?_⟩
  · intro y hy
    rcases List.mem_append.mp hy with hy | hy
    · exact hj.past y hy
    · rw [List.mem_singleton.mp hy]
      exact Int.le_refl _
  · intro y hy n hn
    rcases List.mem_append.mp hy with hy | hy
    · exact hj.began y hy n hn
    · rw [List.mem_singleton.mp hy] at hn ⊢
      exact hb n hn
  · intro l hl
    obtain ⟨h1, ⟨y, hy, h2⟩, h3⟩ := hj.last l hl
    refine ⟨h1, ⟨y, List.mem_append_left _ hy, h2⟩, ?_⟩
    intro y hy hsy
    rcases List.mem_append.mp hy with hy | hy
    · exact h3 y hy hsy
    · rw [List.mem_singleton.mp hy] at hsy
      rw [hs] at hsy
      cases hsy
  · intro h
    rw [ha, hj.live]
  · intro l hl hx
    obtain ⟨t, ht, hc, hd⟩ := hj.due l hl hx
    exact ⟨t, ht, hc, hd.mono _⟩
  · intro l hl y hy n hn hlt
    rcases List.mem_append.mp hy with hy | hy
    · obtain ⟨p, hp, h1, h2, h3⟩ := hj.ran l hl y hy n hn hlt
      exact ⟨p, List.mem_append_left _ hp, h1, h2, h3⟩
    · rw [List.mem_singleton.mp hy] at hn ⊢
      obtain ⟨p, hp, h1, h2⟩ := hr l hl n hn hlt
      exact ⟨p, List.mem_append_left _ hp, h1, h2, hj.past p hp⟩

theorem any_filter {l : List Link} {h k : Nat} :
    (l.filter (fun x => x.handle ≠ h)).any (fun x => x.handle = k) = if h = k then false else l.any (fun x => x.handle = k) := by
  rw [List.any_filter]
  by_cases e : h = k
  · subst e
    rw [if_pos rfl, List.any_eq_false]
    intro x _
    simp
  · rw [if_neg e]
    congr 1
    funext x
    by_cases hx : x.handle = k
    · simp [hx, Ne.symm e]
    · simp [hx]

/-- A connection is removed. -/
theorem j_remove {x : Option Nat} {s : S} {tr : Trace} {h : Nat} {e : Seen} (hx : x = none ∨ x = some h) (hj : J x s tr)
    (he : e = .ended h ∨ e = .closed h) :
    J none { s with links := s.links.filter (fun l => l.handle ≠ h) } (tr ++ [(s.m.clock, e)]) := by
  have hs : ∀ k, sign k e = false := by
    intro k
    rcases he with rfl | rfl <;> rfl
  have hnr : ∀ n, e ≠ .ran n := by
    intro n
    rcases he with rfl | rfl <;> simp
  have hsub : ∀ l ∈ s.links.filter (fun l => l.handle ≠ h), l ∈ s.links ∧ l.handle ≠ h := by
    intro l hl
    simpa using hl
  refine ⟨hj.inv, hj.since, ?_, ?_, ?_, ?_, ?_, ?_, ?_⟩
  · exact (List.filter_sublist.map _).nodup hj.handles
  · intro y hy
    rcases List.mem_append.mp hy with hy | hy
    · exact hj.past y hy
    · rw [List.mem_singleton.mp hy]
      exact Int.le_refl _
  · intro y hy n hn
    rcases List.mem_append.mp hy with hy | hy
    · exact hj.began y hy n hn
    · rw [List.mem_singleton.mp hy] at hn
      exact absurd hn (hnr n)
  · intro l hl
    obtain ⟨h1, ⟨y, hy, h2⟩, h3⟩ := hj.last l (hsub l hl).1
    refine ⟨h1, ⟨y, List.mem_append_left _ hy, h2⟩, ?_⟩
    intro y hy hsy
    rcases List.mem_append.mp hy with hy | hy
    · exact h3 y hy hsy
    · rw [List.mem_singleton.mp hy] at hsy
      rw [hs] at hsy
      cases hsy
  · intro k
    rw [alive_snoc, any_filter]
    rcases he with rfl | rfl
    · simp only [hj.live]
    · simp only [hj.live]
  · intro l hl _
    obtain ⟨hl, hne⟩ := hsub l hl
    have : x ≠ some l.handle := by
      rcases hx with rfl | rfl
      · simp
      · intro e
        cases e
        exact hne rfl
    obtain ⟨t, ht, hc, hd⟩ := hj.due l hl this
    exact ⟨t, ht, hc, hd.mono _⟩
  · intro l hl y hy n hn hlt
    rcases List.mem_append.mp hy with hy | hy
    · obtain ⟨p, hp, h1, h2, h3⟩ := hj.ran l (hsub l hl).1 y hy n hn hlt
      exact ⟨p, List.mem_append_left _ hp, h1, h2, h3⟩
    · rw [List.mem_singleton.mp hy] at hn
      exact absurd hn (hnr n)

/-- A sign of the peer of `h` is seen: its connection has the new time, the others are as before. -/
theorem j_sign {s : S} {tr : Trace} {h : Nat} {e : Seen} {links : List Link} (hj : J none s tr)
    (he : e = .connected h ∨ (e = .received h ∧ alive h tr = true)) (hn : (links.map (·.handle)).Nodup)
    (hl : ∀ l ∈ links, l ∈ s.links ∧ l.handle ≠ h ∨ l.handle = h ∧ l.last = s.m.clock)
    (ha : ∀ k, links.any (fun l => l.handle = k) = if h = k then true else s.links.any (fun l => l.handle = k))
    (hd : ∀ l ∈ links, e ≠ .connected h → ∃ t ∈ s.m.queue, s.checks.lookup t.serial = some l.handle ∧ Due tr l t.time) :
    J (if e = .connected h then some h else none) { s with links := links } (tr ++ [(s.m.clock, e)]) := by
  have hs : ∀ k, sign k e = (h == k) := by
    intro k
    rcases he with rfl | ⟨rfl, _⟩ <;> rfl
  have hnr : ∀ n, e ≠ .ran n := by
    intro n
    rcases he with rfl | ⟨rfl, _⟩ <;> simp
  refine ⟨hj.inv, hj.since, hn, ?_, ?_, ?_, ?_, ?_, ?_⟩
  · intro y hy
    rcases List.mem_append.mp hy with hy | hy
    · exact hj.past y hy
    · rw [List.mem_singleton.mp hy]
      exact Int.le_refl _
  · intro y hy n hn
    rcases List.mem_append.mp hy with hy | hy
    · exact hj.began y hy n hn
    · rw [List.mem_singleton.mp hy] at hn
      exact absurd hn (hnr n)
  · intro l hm
    rcases hl l hm with ⟨hm, hne⟩ | ⟨hh, hlast⟩
    · obtain ⟨h1, ⟨y, hy, h2⟩, h3⟩ := hj.last l hm
      refine ⟨h1, ⟨y, List.mem_append_left _ hy, h2⟩, ?_⟩
      intro y hy hsy
      rcases List.mem_append.mp hy with hy | hy
      · exact h3 y hy hsy
      · rw [List.mem_singleton.mp hy, hs] at hsy
        exact absurd (beq_iff_eq.mp hsy).symm hne
    · refine ⟨by rw [hlast]; exact Int.le_refl _, ⟨(s.m.clock, e), by simp, by rw [hs, hh]; simp, hlast.symm⟩, ?_⟩
      intro y hy _
      rw [hlast]
      rcases List.mem_append.mp hy with hy | hy
      · exact hj.past y hy
      · rw [List.mem_singleton.mp hy]
        exact Int.le_refl _
  · intro k
    rw [alive_snoc, ha k]
    rcases he with rfl | ⟨rfl, h1⟩
    · simp only [hj.live]
    · show alive k tr = _
      by_cases hk : h = k
      · subst hk
        rw [if_pos rfl]
        exact h1
      · rw [if_neg hk, hj.live]
  · intro l hm hx
    by_cases hc : e = .connected h
    · rw [if_pos hc] at hx
      rcases hl l hm with ⟨hm, hne⟩ | ⟨hh, _⟩
      · obtain ⟨t, ht, hc, hd⟩ := hj.due l hm (by simp)
        exact ⟨t, ht, hc, hd.mono _⟩
      · exact absurd (by rw [hh]) hx
    · obtain ⟨t, ht, hc, hd⟩ := hd l hm hc
      exact ⟨t, ht, hc, hd.mono _⟩
  · intro l hm y hy n hn hlt
    rcases List.mem_append.mp hy with hy | hy
    · rcases hl l hm with ⟨hm, hne⟩ | ⟨hh, hlast⟩
      · obtain ⟨p, hp, h1, h2, h3⟩ := hj.ran l hm y hy n hn hlt
        exact ⟨p, List.mem_append_left _ hp, h1, h2, h3⟩
      · have := hj.began y hy n hn
        have := hj.past y hy
        rw [hlast] at hlt
        omega
    · rw [List.mem_singleton.mp hy] at hn
      exact absurd hn (hnr n)

theorem toMs_le {d : Int} (h : 0 ≤ d) : toMs d ≤ d := by
  have h1 : d.tdiv 1000000 = d / 1000000 := Int.tdiv_eq_ediv_of_nonneg h
  simp only [toMs, h1]
  omega

theorem find_link {links : List Link} {h : Nat} {l : Link} (h1 : links.find? (fun l => l.handle = h) = some l) :
    l ∈ links ∧ l.handle = h :=
  ⟨List.mem_of_find?_eq_some h1, by simpa using List.find?_some h1⟩

theorem link_eq {links : List Link} (hn : (links.map (·.handle)).Nodup) {a b : Link} (ha : a ∈ links) (hb : b ∈ links)
    (h : a.handle = b.handle) : a = b := by
  induction links with
  | nil => cases ha
  | cons x xs ih =>
    simp only [List.map_cons, List.nodup_cons] at hn
    rcases List.mem_cons.mp ha with ha' | ha' <;> rcases List.mem_cons.mp hb with hb' | hb'
    · rw [ha', hb']
    · subst ha'
      exact absurd (List.mem_map.mpr ⟨b, hb', h.symm⟩) hn.1
    · subst hb'
      exact absurd (List.mem_map.mpr ⟨a, ha', h⟩) hn.1
    · exact ih hn.2 ha' hb'

/-- No sign for longer than `d` is that of the last one. -/
theorem silent_iff {x : Option Nat} {s : S} {tr : Trace} (hj : J x s tr) {l : Link} (hl : l ∈ s.links) (d now : Int) :
    Silent l.handle d now tr ↔ l.last + d < now := by
  obtain ⟨_, ⟨e, he, hs, ht⟩, h3⟩ := hj.last l hl
  constructor
  · intro h
    have := h e he hs
    omega
  · intro h y hy hsy
    have := h3 y hy hsy
    omega

theorem alive_mem {x : Option Nat} {s : S} {tr : Trace} (hj : J x s tr) {h : Nat} :
    alive h tr = true ↔ ∃ l ∈ s.links, l.handle = h := by
  rw [hj.live]
  simp

/-- A check. -/
theorem j_check {h : Nat} {s s' : S} {tr o : Trace} (hj : J (some h) s tr) (hg : AllGood tr)
    (hc : s.check h = some (s', o)) : J none s' (tr ++ o) ∧ AllGood (tr ++ o) := by
  simp only [S.check] at hc
  split at hc
  · rename_i hf
    cases hc
    rw [List.append_nil]
    refine ⟨⟨hj.inv, hj.since, hj.handles, hj.past, hj.began, hj.last, hj.live, fun l hl _ => hj.due l hl ?_, hj.ran⟩, hg⟩
    intro e
    cases e
    have := List.find?_eq_none.mp hf l hl
    simp at this
  · rename_i l hf
    obtain ⟨hl, rfl⟩ := find_link hf
    have hal : alive l.handle tr = true := (alive_mem hj).mpr ⟨l, hl, rfl⟩
    split at hc
    · rename_i hexp
      cases hc
      simp only [Link.untilExpired, timeout] at hexp
      refine ⟨j_remove (.inr rfl) hj (.inl rfl), allGood_snoc hg ⟨hal, (silent_iff hj hl _ _).mpr (by omega), ?_⟩⟩
      intro r hr n hn hsil
      obtain ⟨p, hp, h1, h2, h3⟩ := hj.ran l hl r hr n hn ((silent_iff hj hl _ _).mp hsil)
      exact ⟨p, hp, h1, h3, (silent_iff hj hl _ _).mpr h2⟩
    · rename_i hexp
      simp only [Link.untilExpired, timeout] at hexp
      split at hc
      · rename_i hnear
        simp only [Link.untilNear, timeout] at hnear
        simp only [Option.map_eq_some_iff] at hc
        obtain ⟨s1, hs1, hc⟩ := hc
        cases hc
        have hj1 : J (some l.handle) s (tr ++ [(s.m.clock, .pinged l.handle)]) :=
          j_see hj (fun _ => rfl) (fun k => by rw [alive_snoc]) (fun n e => by cases e) (fun _ _ n e => by cases e)
        have hms := toMs_le (d := l.untilExpired s.m.clock) (by simp only [Link.untilExpired, timeout]; omega)
        refine ⟨(j_schedule hj1 ?_ hs1).1, allGood_snoc hg ⟨hal, (silent_iff hj hl _ _).mpr (by show _ < s.m.clock; omega), ?_⟩⟩
        · intro k hk hh
          have := link_eq hj.handles hk hl hh
          subst this
          refine .inr ⟨?_, (s.m.clock, .pinged k.handle), by simp, rfl, by show _ < s.m.clock; omega⟩
          simp only [Link.untilExpired, timeout] at hms ⊢
          omega
        · intro hsil
          have := (silent_iff hj hl _ _).mp hsil
          have : l.last + 3000000000 < s.m.clock := this
          omega
      · rename_i hnear
        simp only [Link.untilNear, timeout] at hnear
        simp only [Option.map_eq_some_iff] at hc
        obtain ⟨s1, hs1, hc⟩ := hc
        cases hc
        rw [List.append_nil]
        have hms := toMs_le (d := l.untilNear s.m.clock) (by simp only [Link.untilNear, timeout]; omega)
        refine ⟨(j_schedule hj ?_ hs1).1, hg⟩
        intro k hk hh
        have := link_eq hj.handles hk hl hh
        subst this
        refine .inl ?_
        simp only [Link.untilNear, timeout] at hms ⊢
        omega

/-- Taking the first task. -/
theorem j_pick {x : Option Nat} {s s' : S} {tr : Trace} (hj : J none s tr) (h : s.queue .pick = some s')
    (hx : ∀ t q, s.m.queue = t :: q → s.checks.lookup t.serial = x) : J x s' tr := by
  simp only [S.queue, Option.map_eq_some_iff] at h
  obtain ⟨m, hm, rfl⟩ := h
  have hi := Task.inv_step hj.inv hm
  have hs := since_step hj.since hm
  simp only [Task.step] at hm
  split at hm
  · rename_i now t q hp hq
    split at hm
    · cases hm
    · cases hm
      refine ⟨hi, hs, hj.handles, hj.past, hj.began, hj.last, hj.live, fun l hl hne => ?_, hj.ran⟩
      obtain ⟨y, hy, hc, hd⟩ := hj.due l hl (by simp)
      rw [hq] at hy
      rcases List.mem_cons.mp hy with rfl | hy
      · exact absurd (by rw [← hc, hx _ _ hq]) hne
      · exact ⟨y, hy, hc, hd⟩
  · cases hm

theorem j_done {s s' : S} {tr : Trace} (hj : J none s tr) (hg : AllGood tr) (h : s.queue .done = some s') :
    J none s' (tr ++ [(s.m.clock, .ran (since s.m))]) ∧ AllGood (tr ++ [(s.m.clock, .ran (since s.m))]) := by
  have hj' := j_queue hj rfl h
  simp only [S.queue, Option.map_eq_some_iff] at h
  obtain ⟨m, hm, rfl⟩ := h
  have hlate : ∀ t ∈ s.m.queue, since s.m < t.time := by
    intro t ht
    have hsort := hj.inv.sorted
    simp only [Task.step] at hm
    split at hm
    · rename_i now hp hq
      rw [hq] at ht
      cases ht
    · rename_i now y q hp hq
      split at hm
      · rename_i hlt
        simp only [since, hp]
        rw [hq] at ht hsort
        rcases List.mem_cons.mp ht with rfl | ht
        · exact hlt
        · have := Task.lt_le ((List.pairwise_cons.mp hsort).1 t ht)
          omega
      · cases hm
    · cases hm
  have hclock : m.clock = s.m.clock := by
    simp only [Task.step] at hm
    split at hm
    · cases hm; rfl
    · split at hm
      · cases hm; rfl
      · cases hm
    · cases hm
  have := j_see (e := .ran (since s.m)) hj' (fun _ => rfl) (fun k => by rw [alive_snoc])
    (fun n e => by cases e; show since s.m ≤ m.clock; rw [hclock]; exact hj.since)
    (fun l hl n e hlt => by
      cases e
      obtain ⟨t, ht, hc, hd⟩ := hj.due l hl (by simp)
      have := hlate t ht
      rcases hd with hd | ⟨_, hd⟩
      · omega
      · exact hd)
  refine ⟨by rw [← hclock]; exact this, allGood_snoc hg ?_⟩
  intro h hal
  obtain ⟨l, hl, rfl⟩ := (alive_mem hj).mp hal
  obtain ⟨_, ⟨e, he, hs, hlast⟩, _⟩ := hj.last l hl
  obtain ⟨t, ht, hc, hd⟩ := hj.due l hl (by simp)
  have := hlate t ht
  refine ⟨e, he, hs, ?_⟩
  rcases hd with hd | ⟨hd, _⟩ <;> omega

/-- One action. -/
theorem j_step {s s' : S} {a : Action} {tr o : Trace} (hj : J none s tr) (hg : AllGood tr)
    (h' : s.step a = some (s', o)) : J none s' (tr ++ o) ∧ AllGood (tr ++ o) := by
  have tameCase : ∀ b, tame b = true → ((s.queue b).map (·, ([] : Trace)) = some (s', o)) →
      J none s' (tr ++ o) ∧ AllGood (tr ++ o) := by
    intro b hb h
    simp only [Option.map_eq_some_iff] at h
    obtain ⟨s1, h1, h⟩ := h
    cases h
    rw [List.append_nil]
    exact ⟨j_queue hj hb h1, hg⟩
  cases a with
  | wait d => exact tameCase (.wait d) rfl h'
  | schedule delay period => exact tameCase (.schedule delay period) rfl h'
  | run => exact tameCase .run rfl h'
  | finish => exact tameCase .finish rfl h'
  | connect h supervision =>
    simp only [S.step] at h'
    split at h'
    · cases h'
    · rename_i hno
      simp only [Option.map_eq_some_iff] at h'
      obtain ⟨⟨s1, o1⟩, h1, h2⟩ := h'
      cases h2
      have hfresh : ∀ l ∈ s.links, l.handle ≠ h := by
        intro l hl e
        exact hno (List.any_eq_true.mpr ⟨l, hl, by simpa using e⟩)
      have hj1 := j_sign (h := h) (e := .connected h) (links := ⟨h, s.m.clock, supervision⟩ :: s.links) hj (.inl rfl)
        (by
          simp only [List.map_cons, List.nodup_cons]
          refine ⟨?_, hj.handles⟩
          intro hm
          obtain ⟨l, hl, e⟩ := List.mem_map.mp hm
          exact hfresh l hl e)
        (by
          intro l hl
          rcases List.mem_cons.mp hl with rfl | hl
          · exact .inr ⟨rfl, rfl⟩
          · exact .inl ⟨hl, hfresh l hl⟩)
        (by
          intro k
          by_cases hk : h = k <;> simp [hk])
        (by intro l _ hne; exact absurd rfl hne)
      rw [if_pos rfl] at hj1
      have := j_check hj1 (allGood_snoc hg (e := (s.m.clock, .connected h)) trivial) h1
      simpa using this
  | receive h =>
    simp only [S.step] at h'
    split at h'
    · rename_i hyes
      cases h'
      refine ⟨?_, allGood_snoc hg trivial⟩
      have hmap : (s.links.map (fun l => if l.handle = h then { l with last := s.m.clock } else l)).map (·.handle) =
          s.links.map (·.handle) := by
        rw [List.map_map]
        apply List.map_congr_left
        intro l _
        simp only [Function.comp]
        split <;> rfl
      have hcase : ∀ l ∈ s.links.map (fun l => if l.handle = h then { l with last := s.m.clock } else l),
          ∃ k ∈ s.links, l.handle = k.handle ∧ (k.handle ≠ h ∧ l = k ∨ k.handle = h ∧ l.last = s.m.clock) := by
        intro l hl
        obtain ⟨k, hk, rfl⟩ := List.mem_map.mp hl
        refine ⟨k, hk, ?_⟩
        by_cases hh : k.handle = h
        · rw [if_pos hh]; exact ⟨rfl, .inr ⟨hh, rfl⟩⟩
        · rw [if_neg hh]; exact ⟨rfl, .inl ⟨hh, rfl⟩⟩
      have hj1 := j_sign (h := h) (e := .received h)
        (links := s.links.map (fun l => if l.handle = h then { l with last := s.m.clock } else l)) hj
        (.inr ⟨rfl, by rw [hj.live]; exact hyes⟩)
        (by rw [hmap]; exact hj.handles)
        (by
          intro l hl
          obtain ⟨k, hk, he, ⟨hne, rfl⟩ | ⟨hh, hla⟩⟩ := hcase l hl
          · exact .inl ⟨hk, hne⟩
          · exact .inr ⟨he.trans hh, hla⟩)
        (by
          intro k
          have hm : ∀ (ls : List Link), ls.any (fun l => l.handle = k) = (ls.map (·.handle)).any (fun a => a = k) := by
            intro ls; rw [List.any_map]; rfl
          rw [hm, hmap, ← hm]
          by_cases hk : h = k
          · subst hk; rw [if_pos rfl]; exact hyes
          · rw [if_neg hk])
        (by
          intro l hl _
          obtain ⟨k, hk, he, hor⟩ := hcase l hl
          obtain ⟨t, ht, hc, hd⟩ := hj.due k hk (by simp)
          refine ⟨t, ht, by rw [he]; exact hc, ?_⟩
          rcases hor with ⟨_, rfl⟩ | ⟨_, hla⟩
          · exact hd
          · rcases hd with hd | ⟨hd, p, hp, h1, h2⟩
            · have := (hj.last k hk).1
              exact .inl (by rw [hla]; omega)
            · have := hj.past p hp
              exact .inl (by rw [hla]; omega))
      rwa [if_neg (by simp)] at hj1
    · cases h'
      rw [List.append_nil]
      exact ⟨hj, hg⟩
  | close h =>
    simp only [S.step] at h'
    split at h'
    · cases h'
      exact ⟨j_remove (.inl rfl) hj (.inr rfl), allGood_snoc hg trivial⟩
    · cases h'
      rw [List.append_nil]
      exact ⟨hj, hg⟩
  | cancel id =>
    simp only [S.step] at h'
    split at h'
    · cases h'
    · rename_i hno
      simp only [Option.map_eq_some_iff] at h'
      obtain ⟨s1, h1, h'⟩ := h'
      cases h'
      rw [List.append_nil]
      refine ⟨?_, hg⟩
      simp only [S.queue, Option.map_eq_some_iff] at h1
      obtain ⟨m, hm, rfl⟩ := h1
      have hi := Task.inv_step hj.inv hm
      have hs := since_step hj.since hm
      cases hm
      refine ⟨hi, hs, hj.handles, hj.past, hj.began, hj.last, hj.live, fun l hl hx => ?_, hj.ran⟩
      obtain ⟨t, ht, hc, hd⟩ := hj.due l hl hx
      refine ⟨t, Task.mem_cancel_of _ _ ht ?_, hc, hd⟩
      intro e
      apply hno
      exact List.any_eq_true.mpr ⟨t, ht, by simp [e, hc]⟩
  | pick =>
    simp only [S.step] at h'
    split at h'
    · cases h'
    · rename_i t q hq
      split at h'
      · rename_i hl
        simp only [Option.map_eq_some_iff] at h'
        obtain ⟨s1, h1, h'⟩ := h'
        cases h'
        rw [List.append_nil]
        exact ⟨j_pick hj h1 (fun t' q' e => by rw [hq] at e; cases e; exact hl), hg⟩
      · rename_i k hl
        split at h'
        · cases h'
        · rename_i s1 h1
          split at h'
          · cases h'
          · rename_i s2 o2 h2
            simp only [Option.map_eq_some_iff] at h'
            obtain ⟨s3, h3, h'⟩ := h'
            cases h'
            have hj1 := j_pick hj h1 (fun t' q' e => by rw [hq] at e; cases e; exact hl)
            obtain ⟨hj2, hg2⟩ := j_check hj1 hg h2
            exact ⟨j_queue hj2 rfl h3, hg2⟩
  | done =>
    simp only [S.step, Option.map_eq_some_iff] at h'
    obtain ⟨s1, h1, h'⟩ := h'
    cases h'
    exact j_done hj hg h1

theorem j_runs {as : List Action} : ∀ {s s' : S} {tr o : Trace}, J none s tr → AllGood tr →
    S.runs as s = some (s', o) → J none s' (tr ++ o) ∧ AllGood (tr ++ o) := by
  induction as with
  | nil =>
    intro s s' tr o hj hg h
    cases h
    rw [List.append_nil]
    exact ⟨hj, hg⟩
  | cons a as ih =>
    intro s s' tr o hj hg h
    simp only [S.runs] at h
    split at h
    · cases h
    · rename_i s1 o1 h1
      simp only [Option.map_eq_some_iff] at h
      obtain ⟨⟨s2, o2⟩, h2, h⟩ := h
      cases h
      obtain ⟨hj1, hg1⟩ := j_step hj hg h1
      have := ih hj1 hg1 h2
      rwa [List.append_assoc] at this

theorem j_initial (clock : Int) : J none (S.initial clock) [] := by
  refine ⟨Task.inv_initial clock, Int.le_refl _, List.nodup_nil, ?_, ?_, ?_, fun _ => rfl, ?_, ?_⟩ <;>
    intro x hx <;> cases hx

theorem good_runs {as : List Action} {clock : Int} {s : S} {tr : Trace} (h : S.runs as (S.initial clock) = some (s, tr)) :
    AllGood tr := by
  have := (j_runs (j_initial clock) allGood_nil h).2
  simpa using this

end Verif.Live
