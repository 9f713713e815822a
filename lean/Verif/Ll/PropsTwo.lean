import Verif.Ll.TwoLemmas
/-! # C121: two LE devices agree about their connection whenever nothing is on its way -/
namespace Verif.Ll
open Verif.Le

/-- Let one device advertise, in any way, and let the other connect to it, again and again; let both hosts end connections when they like,
also at once, cancel attempts and change everything else. Then whenever no request, acceptance or end is on its way, neither device has a
connection or both have one and the same. Missing are an advertiser that also initiates, and an initiator whose host asks for a second
connection or is reset while a request is on its way; see below. -/
theorem C121_agree_partial {ah : Hash} {ca cb : Config} {n : Two} (h : TwoReach ah ca cb PatientTwo n) (hs : SettledTwo n) : AgreeTwo n := by
  have hi : TwoRep n := by
    clear hs
    induction h with
    | start x y => exact twoRep_start x y
    | step _ hp hx ih => exact twoRep_step ih hp hx
  obtain ⟨a, b, ha, hb, -, i⟩ := hi
  rw [hs.1, hs.2] at i
  cases a with
  | none =>
    have hb' : b = none := i.nothing rfl
    subst hb'
    exact .inl ⟨ha, hb⟩
  | some t =>
    have hb' : b = some t := (i.one t rfl).resolve_right (by simp)
    subst hb'
    obtain ⟨k, c, e, e1, e2, e3, e4⟩ := ha
    obtain ⟨k', c', f, f1, f2, f3, f4⟩ := hb
    exact .inr ⟨k, c, k', c', e, f, e1.trans f2.symm, e2.trans f1.symm, e3.trans f3.symm, e4, f4⟩

/-- When a device has a connection that the other does not have, then its acceptance or its end is on its way. -/
theorem C121_half_open_partial {ah : Hash} {ca cb : Config} {n : Two} (h : TwoReach ah ca cb PatientTwo n) :
    (n.a.conns ≠ [] → n.b.conns = [] → (∃ t, .yes t ∈ lwords n.toB) ∨ ∃ u v, .bye u v ∈ lwords n.toA) ∧
    (n.b.conns ≠ [] → n.a.conns = [] → ∃ u v, .bye u v ∈ lwords n.toB) := by
  have hi : TwoRep n := by
    induction h with
    | start x y => exact twoRep_start x y
    | step _ hp hx ih => exact twoRep_step ih hp hx
  obtain ⟨a, b, ha, hb, -, i⟩ := hi
  constructor
  · intro h1 h2
    cases b with
    | some t => obtain ⟨k, c, e, -⟩ := hb; rw [e] at h2; cases h2
    | none =>
      cases a with
      | none => exact absurd ha h1
      | some t =>
        refine (i.one t rfl).imp (fun hd => ?_) id
        refine Classical.byContradiction fun hn => ?_
        rw [drain_none (fun t ht => hn ⟨t, ht⟩)] at hd
        cases hd
  · intro h1 h2
    cases a with
    | some t => obtain ⟨k, c, e, -⟩ := ha; rw [e] at h2; cases h2
    | none =>
      cases b with
      | none => exact absurd hb h1
      | some t =>
        refine Classical.byContradiction fun hn => ?_
        have ny : ∀ t, .yes t ∉ lwords n.toB := fun t' ht => by simpa using (i.yesPend t' ht).2.1
        have hd := i.nothing rfl
        rw [drain_keeps i.noAsk ny (fun u v hu => hn ⟨u, v, hu⟩)] at hd
        cases hd

/-! ### Examples -/

/-- A history. -/
def runTwo (ah : Hash) (ca cb : Config) : List TwoAct → Two → Option Two
  | [], n => some n
  | x :: xs, n => (twoStep ah ca cb n x).bind (runTwo ah ca cb xs)

def cfgA : Config := { Config.default with publicAddress := 0xA }
def cfgB : Config := { Config.default with publicAddress := 0xB }

/-- Two new devices. -/
def twoNew : Two := { a := initial none, b := initial none }

/-- A advertises, at a time. -/
def advertises (now : Nat) : List TwoAct :=
  [.atA (.cmd (.setAdvertisingParameters ⟨0x20, 0x20, .advInd, .pub, .pub, 0, 7, .allDevices⟩)),
   .atA (.cmd (.setAdvertisingEnable now (fun _ _ => 0) true)), .atA (.tick (now + 1000000))]

/-- B's host wants a connection. -/
def wants : TwoAct := .atB (.cmd (.createConnection (fun _ => 0) .usePeerAddress ⟨0xA, .publicDevice⟩ .pub ⟨0x10, 0x10, 0x18, 0x28, 0, 0x64, 0, 0⟩))

def atA : TwoAct := .arriveA (fun _ => 0) 0
def atB : TwoAct := .arriveB (fun _ => 0) 0

/-- What is seen of the two: the roles, and the words on their way. -/
def sight (ops : List TwoAct) : Option (List Role × List Role × List LWord × List LWord) :=
  (runTwo (fun _ _ => 0) cfgA cfgB ops twoNew).map (fun n => (n.a.conns.map (·.2.role), n.b.conns.map (·.2.role), lwords n.toA, lwords n.toB))

/-- The host ends a connection. -/
def ends (h : Nat) : Op := .disconnect h 0x13 0x16

/-- The connection of the two. -/
def theTie : Tie := ⟨⟨0xB, .publicDevice⟩, ⟨0xA, .publicDevice⟩, ⟨0x28, 0, 0x64⟩⟩

/-- The request is on its way, then its acceptance; then both have the connection. -/
example : sight (advertises 0 ++ [wants, atB]) = some ([], [], [.ask theTie], []) := by decide +kernel
example : sight (advertises 0 ++ [wants, atB, atA]) = some ([.peripheral], [], [], [.yes theTie]) := by decide +kernel
example : sight (advertises 0 ++ [wants, atB, atA, atB]) = some ([.peripheral], [.central], [], []) := by decide +kernel

/-- Both end it at once. -/
example : sight (advertises 0 ++ [wants, atB, atA, atB, .atB (ends 0x200), .atA (ends 0x200)]) =
    some ([], [], [.bye 0xB 0xA], [.bye 0xA 0xB]) := by decide +kernel
example : sight (advertises 0 ++ [wants, atB, atA, atB, .atB (ends 0x200), .atA (ends 0x200), atA, atB]) =
    some ([], [], [], []) := by decide +kernel

/-- A history of allowed steps. -/
theorem TwoReach.run {ah : Hash} {ca cb : Config} {ok : Two → TwoAct → Prop} : ∀ {xs : List TwoAct} {n m : Two},
    TwoReach ah ca cb ok n → (∀ x ∈ xs, ∀ k, ok k x) → runTwo ah ca cb xs n = some m → TwoReach ah ca cb ok m
  | [], _, _, h, _, e => by cases e; exact h
  | x :: xs, n, m, h, ho, e => by
    simp only [runTwo] at e
    obtain ⟨k, hk, e⟩ := Option.bind_eq_some_iff.1 e
    exact TwoReach.run (.step h (ho x List.mem_cons_self n) hk) (fun y hy => ho y (List.mem_cons_of_mem _ hy)) e

/-- The hypotheses of the theorems are met by a history in which the two connect. -/
example : ∃ n, TwoReach (fun _ _ => 0) cfgA cfgB PatientTwo n ∧ SettledTwo n ∧ n.a.conns ≠ [] := by
  have h : ((runTwo (fun _ _ => 0) cfgA cfgB (wants :: advertises 0 ++ [atB, atA, atB]) twoNew).all fun n =>
      n.a.conns.map (·.1) == [0x200] && decide (lwords n.toA = []) && decide (lwords n.toB = [])) = true := by decide +kernel
  have hs : (runTwo (fun _ _ => 0) cfgA cfgB (wants :: advertises 0 ++ [atB, atA, atB]) twoNew).isSome = true := by decide +kernel
  obtain ⟨n, hn⟩ := Option.isSome_iff_exists.1 hs
  rw [hn] at h
  simp only [Option.all_some, Bool.and_eq_true, beq_iff_eq, decide_eq_true_eq] at h
  refine ⟨n, ?_, ⟨h.1.2, h.2⟩, fun e => by rw [e] at h; simp at h⟩
  rw [List.cons_append, runTwo] at hn
  obtain ⟨k, hk, hn⟩ := Option.bind_eq_some_iff.1 hn
  have hw : PatientTwo twoNew wants := ⟨rfl, by simp [twoNew, lwords], by simp [twoNew, lwords]⟩
  refine TwoReach.run (.step (.start none none) hw hk) ?_ hn
  intro x hx k
  simp only [advertises, atA, atB, List.cons_append, List.nil_append, List.mem_cons, List.not_mem_nil, or_false] at hx
  rcases hx with rfl | rfl | rfl | rfl | rfl | rfl <;> exact trivial

/-! ### Where the devices do not agree -/

/-- What is needed of a history to show that the devices do not agree. -/
theorem disagree {xs : List TwoAct} {p q : List Role} (h : sight xs = some (p, q, [], []))
    (hpq : ¬ (p = [] ∧ q = []) ∧ ¬ (p = [.peripheral] ∧ q = [.central])) :
    ∃ n, runTwo (fun _ _ => 0) cfgA cfgB xs twoNew = some n ∧ SettledTwo n ∧ ¬ AgreeTwo n := by
  simp only [sight] at h
  obtain ⟨n, hn, e⟩ := Option.map_eq_some_iff.1 h
  simp only [Prod.mk.injEq] at e
  obtain ⟨rfl, rfl, e1, e2⟩ := e
  refine ⟨n, hn, ⟨e1, e2⟩, ?_⟩
  rintro (⟨g1, g2⟩ | ⟨k, c, k', c', g1, g2, -, -, -, g3, g4⟩)
  · exact hpq.1 (by simp [g1, g2])
  · exact hpq.2 (by simp [g1, g2, g3, g4])

/-- The initiator asks for a second connection while it has one; both end the first at the same time, when the second has been accepted: the
end that the initiator sends removes the second connection of the advertiser, because the packet only has the two addresses. The initiator
keeps a connection that the advertiser does not have. -/
theorem C121_second_violated : ∃ n, runTwo (fun _ _ => 0) cfgA cfgB
    (advertises 0 ++ [wants, atB, atA, atB] ++ advertises 5000000 ++
      [wants, atB, .atA (ends 0x200), atA, .atB (ends 0x200), atB, atB, atA]) twoNew = some n ∧ SettledTwo n ∧ ¬ AgreeTwo n :=
  disagree (p := []) (q := [.central]) (by decide +kernel) (by decide)

/-- The initiator is reset while its request is on its way: nothing tells the advertiser, which accepts it and keeps the connection. -/
theorem C121_reset_violated : ∃ n, runTwo (fun _ _ => 0) cfgA cfgB
    (advertises 0 ++ [wants, atB, .atB .reset, atA, atB]) twoNew = some n ∧ SettledTwo n ∧ ¬ AgreeTwo n :=
  disagree (p := [.peripheral]) (q := []) (by decide +kernel) (by decide)

/-- B advertises, at a time. -/
def bAdvertises (now : Nat) : List TwoAct :=
  [.atB (.cmd (.setAdvertisingParameters ⟨0x20, 0x20, .advInd, .pub, .pub, 0, 7, .allDevices⟩)),
   .atB (.cmd (.setAdvertisingEnable now (fun _ _ => 0) true)), .atB (.tick (now + 1000000))]

/-- A's host wants a connection. -/
def aWants : TwoAct := .atA (.cmd (.createConnection (fun _ => 0) .usePeerAddress ⟨0xB, .publicDevice⟩ .pub ⟨0x10, 0x10, 0x18, 0x28, 0, 0x64, 0, 0⟩))

/-- Both advertise and both initiate: they get two connections. One host ends the one in which it is the central; the other device removes
the one in which it is the central too, because the packet only has the two addresses. Each is left with a connection as the peripheral. -/
theorem C121_crossing_violated : ∃ n, runTwo (fun _ _ => 0) cfgA cfgB
    (advertises 0 ++ bAdvertises 0 ++ [wants, aWants, atA, atB, atA, atB, atA, atB, .atA (ends 0x201), atB]) twoNew = some n ∧
    SettledTwo n ∧ ¬ AgreeTwo n :=
  disagree (p := [.peripheral]) (q := [.peripheral]) (by decide +kernel) (by decide)

/-- Each is peripheral. -/
example : sight (advertises 0 ++ bAdvertises 0 ++ [wants, aWants, atA, atB, atA, atB, atA, atB, .atA (ends 0x201), atB]) =
    some ([.peripheral], [.peripheral], [], []) := by decide +kernel

end Verif.Ll
