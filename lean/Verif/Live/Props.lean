import Verif.Live.Lemmas
/-!
# C91: link supervision

Connections are made, packets of the peers arrive, hosts end connections, tasks are scheduled and cancelled, time
passes, and `Tick` is called, in any order: `S.runs` gives what is seen of it. For each claim the trace is cut at the
point of interest: `pre` is what was seen before.
-/
namespace Verif.Live

/-- C91: a connection is ended for a timeout only if there is one, and nothing came from its peer for more than three
seconds. -/
theorem C91_only_silent (as : List Action) (clock : Int) (s : S) (tr : Trace)
    (h : S.runs as (S.initial clock) = some (s, tr)) (pre post : Trace) (t : Int) (k : Nat)
    (ht : tr = pre ++ (t, .ended k) :: post) : alive k pre = true ∧ Silent k 3000000000 t pre :=
  have hg := good_runs h pre _ post ht
  ⟨hg.1, hg.2.1⟩

/-- C91: a ping is sent only to the peer of a connection, after more than a second and a half without a packet of it,
and not after more than three. -/
theorem C91_ping (as : List Action) (clock : Int) (s : S) (tr : Trace)
    (h : S.runs as (S.initial clock) = some (s, tr)) (pre post : Trace) (t : Int) (k : Nat)
    (ht : tr = pre ++ (t, .pinged k) :: post) :
    alive k pre = true ∧ Silent k 1500000000 t pre ∧ ¬Silent k 3000000000 t pre :=
  good_runs h pre _ post ht

/-- C91: when a call of `Tick` returns, every connection left has had a packet of its peer less than three seconds before
the call began. -/
theorem C91_ends_silent (as : List Action) (clock : Int) (s : S) (tr : Trace)
    (h : S.runs as (S.initial clock) = some (s, tr)) (pre post : Trace) (t n : Int)
    (ht : tr = pre ++ (t, .ran n) :: post) (k : Nat) (hk : alive k pre = true) :
    ∃ x ∈ pre, sign k x.2 = true ∧ n < x.1 + 3000000000 :=
  good_runs h pre _ post ht k hk

/-- C91: a connection is not ended without a ping, if a call of `Tick` that began more than a second and a half after the
last packet of the peer has returned: the ping was sent by the end of that call. -/
theorem C91_warned (as : List Action) (clock : Int) (s : S) (tr : Trace)
    (h : S.runs as (S.initial clock) = some (s, tr)) (pre post : Trace) (t : Int) (k : Nat)
    (ht : tr = pre ++ (t, .ended k) :: post) (e n : Int) (hr : (e, .ran n) ∈ pre) (hs : Silent k 1500000000 n pre) :
    ∃ p, (p, .pinged k) ∈ pre ∧ p ≤ e ∧ Silent k 1500000000 p pre := by
  obtain ⟨⟨p, x⟩, hp, h1, h2, h3⟩ := (good_runs h pre _ post ht).2.2 _ hr n rfl hs
  simp only at h1 h2 h3
  subst h1
  exact ⟨p, hp, h2, h3⟩

/-- C91: a peer that answers pings within `d` is not dropped at a time `t`, if some call of `Tick` has begun in the
second and a half before and has returned more than `d` before. -/
theorem C91_answered (as : List Action) (clock : Int) (s : S) (tr : Trace)
    (h : S.runs as (S.initial clock) = some (s, tr)) (pre post : Trace) (t : Int) (k : Nat) (d : Int)
    (ha : ∀ p, (p, .pinged k) ∈ pre → p + d < t → ∃ x ∈ pre, sign k x.2 = true ∧ p ≤ x.1)
    (hr : ∃ e n, (e, .ran n) ∈ pre ∧ t - 1500000000 ≤ n ∧ e + d < t) :
    tr ≠ pre ++ (t, .ended k) :: post := by
  intro ht
  obtain ⟨e, n, hr, hn, he⟩ := hr
  have hs := (C91_only_silent as clock s tr h pre post t k ht).2
  have hs' : Silent k 1500000000 n pre := by
    intro x hx hsx
    have := hs x hx hsx
    omega
  obtain ⟨p, hp, h1, h2⟩ := C91_warned as clock s tr h pre post t k ht e n hr hs'
  obtain ⟨x, hx, hsx, hpx⟩ := ha p hp (by omega)
  have := h2 x hx hsx
  omega

/-- A connection that gets one packet, then a ping, and is then ended, with calls of `Tick` in between; another is
kept. -/
def story : List Action := [.connect 1 300, .connect 2 300, .wait 1000000000, .receive 1, .wait 600000000, .run, .pick,
  .pick, .done, .wait 1000000000, .receive 2, .run, .pick, .done, .wait 1500000000, .receive 2, .run, .pick, .pick, .done]

/-- What is seen of it, and that all five theorems have something to say. -/
example : (S.runs story (S.initial 0)).map (·.2) = some [(0, .connected 1), (0, .connected 2), (1000000000, .received 1),
    (1600000000, .pinged 2), (1600000000, .ran 1600000000), (2600000000, .received 2), (2600000000, .pinged 1),
    (2600000000, .ran 2600000000), (4100000000, .received 2), (4100000000, .ended 1),
    (4100000000, .ran 4100000000)] := by
  decide +kernel

/-- That the supervision timeout given for a connection, in units of 10 ms, is what decides: it is ended only after
that long without a packet, and a call of `Tick` that begins after that long ends it. -/
def Supervised : Prop := ∀ (as : List Action) (clock : Int) (s : S) (tr : Trace),
  S.runs as (S.initial clock) = some (s, tr) → ∀ k n, (∀ m, .connect k m ∈ as → m = n) →
    (∀ pre post t, tr = pre ++ (t, .ended k) :: post → Silent k (n * 10000000) t pre) ∧
    (∀ pre post t b, tr = pre ++ (t, .ran b) :: post → alive k pre = true → ¬Silent k (n * 10000000) b pre)

/-- The code does not do that. A connection with the supervision timeout of 20 s is ended after three seconds; one with
0.1 s is kept for a second. -/
theorem C91_supervised_violated :
    (∃ as s tr pre post t, S.runs as (S.initial 0) = some (s, tr) ∧ (∀ m, .connect 1 m ∈ as → m = 2000) ∧
      tr = pre ++ (t, .ended 1) :: post ∧ ¬Silent 1 20000000000 t pre) ∧
    (∃ as s tr pre post t b, S.runs as (S.initial 0) = some (s, tr) ∧ (∀ m, .connect 1 m ∈ as → m = 10) ∧
      tr = pre ++ (t, .ran b) :: post ∧ alive 1 pre = true ∧ Silent 1 100000000 b pre) ∧ ¬Supervised := by
  have h1 : ∃ s, S.runs [.connect 1 2000, .wait 3000000001, .run, .pick] (S.initial 0) =
      some (s, [(0, .connected 1)] ++ (3000000001, .ended 1) :: []) := ⟨_, rfl⟩
  have h2 : ∃ s, S.runs [.connect 1 10, .wait 1000000000, .run, .done] (S.initial 0) =
      some (s, [(0, .connected 1)] ++ (1000000000, .ran 1000000000) :: []) := ⟨_, rfl⟩
  have n1 : ¬Silent 1 20000000000 3000000001 [(0, .connected 1)] := by
    intro h
    have := h (0, .connected 1) (by simp) rfl
    simp at this
  have n2 : Silent 1 100000000 1000000000 [(0, .connected 1)] := by
    intro x hx _
    rw [List.mem_singleton.mp hx]
    decide
  obtain ⟨s1, h1⟩ := h1
  obtain ⟨s2, h2⟩ := h2
  refine ⟨⟨_, _, _, _, _, _, h1, ?_, rfl, n1⟩, ⟨_, _, _, _, _, _, _, h2, ?_, rfl, rfl, n2⟩, fun h => ?_⟩
  · intro m hm
    simpa using hm
  · intro m hm
    simpa using hm
  · exact n1 ((h _ _ _ _ h1 1 2000 (by intro m hm; simpa using hm)).1 _ _ _ rfl)

end Verif.Live
