import Verif.Lmp.SimLemmas

/-! # Fair schedules reach a state where the exploration stops -/

namespace Verif.Lmp

structure AbsDev (d : Dev) (m : MSide) : Prop where
  procs : d.link.procs = some m.procs
  five : m.procs.length = 5
  inbox : m.inbox = d.link.slot.toList ++ d.host
  queue : m.queue = d.link.queue ++ d.wire
  log : m.log = d.log.filter Ev.verdict

theorem AbsDev.receive {d : Dev} {m : MSide} (h : AbsDev d m) (o : List Out) : AbsDev (d.receive o) (m.receive o) :=
  ⟨h.procs, h.five, h.inbox, by simp [MSide.receive, Dev.receive, h.queue], h.log⟩

theorem receive_nil (m : MSide) : m.receive [] = m := by simp [MSide.receive]

theorem Dev.receive_nil (d : Dev) : d.receive [] = d := by simp [Dev.receive]

theorem Dev.after_nil (d : Dev) (u : User) : d.after u d.link [] = d := by simp [Dev.after]

/-- A `Tick` of one device. -/
theorem dev_tick {sd : Bool} {ua ub : User} {good : MSys → Bool} {d : Dev} {s : MSys} {k : Nat}
    (ha : AbsDev d (s.get sd)) (hx : explore (hosts ua ub) good k s = true) :
    ∃ l o k' s', d.link.tick = some (l, o) ∧ explore (hosts ua ub) good k' s' = true ∧
      AbsDev (d.after (pickUser ua ub sd) l o) (s'.get sd) ∧ s'.get (!sd) = (s.get (!sd)).receive o ∧
      ((k' = k ∧ l = d.link ∧ o = [] ∧ s' = s ∧ ∀ r ∈ (s.get sd).procs, offer r.cur d.link.slot d.link.queue = none) ∨
        k' < k) := by
  have hmid : Mid sd (pickUser ua ub sd) d (s.get (!sd)) ([] ++ (s.get sd).procs) ⟨d.link.slot, d.link.queue, []⟩ s :=
    ⟨by simp, by simp [ha.inbox], by simp [ha.queue], by simp [ha.log], by simp [receive_nil]⟩
  obtain ⟨ps', l', k', s', hp, hlen, hx', hmid', hk⟩ := pollAll_sim (s.get sd).procs [] ⟨d.link.slot, d.link.queue, []⟩ s k
    (by simp [ha.five]) hmid hx (Or.inl (by simp))
  refine ⟨⟨d.link.peer, l'.slot, l'.queue, some ps'⟩, l'.outs, k', s', ?_, hx', ?_, hmid'.other, ?_⟩
  · unfold Link.tick
    rw [ha.procs]
    simp only [hp]
  · have hps : (s'.get sd).procs = ps' := by simpa using hmid'.procs
    exact ⟨by simp [Dev.after, hps], by rw [hps, hlen, ha.five], by rw [hmid'.inbox]; simp [Dev.after],
      by rw [hmid'.queue]; simp [Dev.after], by rw [hmid'.log]; simp [Dev.after]⟩
  · rcases hk with ⟨rfl, rfl, rfl, rfl, hr⟩ | hk
    · left
      refine ⟨rfl, ?_, rfl, rfl, hr⟩
      have := ha.procs
      cases hd : d.link with
      | mk peer slot queue procs => rw [hd] at this; simp at this; simp [this]
    · exact Or.inr hk

/-- The state of the devices `s` is the explored state `m`, with `k` steps to go at most. -/
structure Rel (ua ub : User) (good : MSys → Bool) (k : Nat) (s : Duo) (m : MSys) : Prop where
  ok : explore (hosts ua ub) good k m = true
  a : AbsDev s.a m.a
  b : AbsDev s.b m.b

def Duo.rest (s : Duo) : Nat := s.a.wire.length + s.a.host.length + s.b.wire.length + s.b.host.length

theorem AbsDev.arrive {d : Dev} {m : MSide} (h : AbsDev d m) : AbsDev d.arrive m := by
  unfold Dev.arrive
  split
  · exact h
  · rename_i p w hw
    exact ⟨h.procs, h.five, h.inbox, by rw [h.queue, hw]; simp, h.log⟩

theorem AbsDev.send {d : Dev} {m : MSide} (h : AbsDev d m) : AbsDev d.send m := by
  unfold Dev.send
  split
  · rename_i c hh hs hc
    exact ⟨h.procs, h.five, by rw [h.inbox, hs, hc]; simp, h.queue, h.log⟩
  · exact h

theorem Dev.arrive_rest (d : Dev) :
    (d.arrive = d ∧ d.wire = []) ∨ (d.arrive.wire.length < d.wire.length ∧ d.arrive.host = d.host) := by
  unfold Dev.arrive
  split
  · rename_i h
    exact Or.inl ⟨rfl, h⟩
  · rename_i p w hw
    right
    simp [hw]

theorem Dev.send_rest (d : Dev) :
    (d.send = d ∧ (d.link.slot = none → d.host = [])) ∨ (d.send.host.length < d.host.length ∧ d.send.wire = d.wire) := by
  unfold Dev.send
  split
  · rename_i c hh hs hc
    right
    simp [hc]
  · rename_i hn
    left
    refine ⟨rfl, fun hs => ?_⟩
    cases hh : d.host with
    | nil => rfl
    | cons c h => exact absurd hh (hn c h hs)

/-- Every event of the schedule: nothing changes, or there is less to do. -/
theorem act_sim {ua ub : User} {good : MSys → Bool} {k : Nat} {s : Duo} {m : MSys} (h : Rel ua ub good k s m) (x : Act) :
    ∃ s' k' m', s.act ua ub x = some s' ∧ Rel ua ub good k' s' m' ∧
      ((s' = s ∧ k' = k ∧ m' = m) ∨ k' < k ∨ (k' = k ∧ s'.rest < s.rest)) := by
  cases x with
  | tickA =>
    obtain ⟨l, o, k', m', ht, hx, ha, hb, hk⟩ := dev_tick (sd := false) (ua := ua) (ub := ub) h.a h.ok
    refine ⟨⟨s.a.after ua l o, s.b.receive o⟩, k', m', by simp only [Duo.act, ht], ⟨hx, ha, ?_⟩, ?_⟩
    · have : m'.b = m.b.receive o := hb
      rw [this]
      exact h.b.receive o
    · rcases hk with ⟨rfl, rfl, rfl, rfl, -⟩ | hk
      · exact Or.inl ⟨by rw [Dev.after_nil, Dev.receive_nil], rfl, rfl⟩
      · exact Or.inr (Or.inl hk)
  | tickB =>
    obtain ⟨l, o, k', m', ht, hx, ha, hb, hk⟩ := dev_tick (sd := true) (ua := ua) (ub := ub) h.b h.ok
    refine ⟨⟨s.a.receive o, s.b.after ub l o⟩, k', m', by simp only [Duo.act, ht], ⟨hx, ?_, ha⟩, ?_⟩
    · have : m'.a = m.a.receive o := hb
      rw [this]
      exact h.a.receive o
    · rcases hk with ⟨rfl, rfl, rfl, rfl, -⟩ | hk
      · exact Or.inl ⟨by rw [Dev.after_nil, Dev.receive_nil], rfl, rfl⟩
      · exact Or.inr (Or.inl hk)
  | arriveA =>
    refine ⟨_, k, m, rfl, ⟨h.ok, h.a.arrive, h.b⟩, ?_⟩
    rcases s.a.arrive_rest with ⟨hd, -⟩ | ⟨h1, h2⟩
    · exact Or.inl ⟨by rw [hd], rfl, rfl⟩
    · refine Or.inr (Or.inr ⟨rfl, ?_⟩)
      simp only [Duo.rest, h2]
      omega
  | arriveB =>
    refine ⟨_, k, m, rfl, ⟨h.ok, h.a, h.b.arrive⟩, ?_⟩
    rcases s.b.arrive_rest with ⟨hd, -⟩ | ⟨h1, h2⟩
    · exact Or.inl ⟨by rw [hd], rfl, rfl⟩
    · refine Or.inr (Or.inr ⟨rfl, ?_⟩)
      simp only [Duo.rest, h2]
      omega
  | sendA =>
    refine ⟨_, k, m, rfl, ⟨h.ok, h.a.send, h.b⟩, ?_⟩
    rcases s.a.send_rest with ⟨hd, -⟩ | ⟨h1, h2⟩
    · exact Or.inl ⟨by rw [hd], rfl, rfl⟩
    · refine Or.inr (Or.inr ⟨rfl, ?_⟩)
      simp only [Duo.rest, h2]
      omega
  | sendB =>
    refine ⟨_, k, m, rfl, ⟨h.ok, h.a, h.b.send⟩, ?_⟩
    rcases s.b.send_rest with ⟨hd, -⟩ | ⟨h1, h2⟩
    · exact Or.inl ⟨by rw [hd], rfl, rfl⟩
    · refine Or.inr (Or.inr ⟨rfl, ?_⟩)
      simp only [Duo.rest, h2]
      omega

theorem no_moves_side {d : Dev} {m : MSide} (h : AbsDev d m) (hw : d.wire = []) (hh : d.link.slot = none → d.host = [])
    (hr : ∀ r ∈ m.procs, offer r.cur d.link.slot d.link.queue = none) (i : Nat) : m.can i = false := by
  unfold MSide.can
  split
  · rfl
  · rename_i p hp
    have hq : m.queue = d.link.queue := by rw [h.queue, hw]; simp
    have hi : m.inbox.head? = d.link.slot := by
      rw [h.inbox]
      cases hs : d.link.slot with
      | none => simp [hh hs]
      | some c => simp
    rw [hq, hi, takes_offer, hr p (List.mem_of_getElem? hp)]
    rfl

/-- Nothing will happen any more. -/
structure Dead (ua ub : User) (s : Duo) (m : MSys) : Prop where
  moves : m.moves = []
  wireA : s.a.wire = []
  wireB : s.b.wire = []
  still : ∀ x, s.act ua ub x = some s

/-- Either some event makes progress, or nothing will happen any more. -/
theorem progress {ua ub : User} {good : MSys → Bool} {k : Nat} {s : Duo} {m : MSys} (h : Rel ua ub good k s m) :
    (∃ x s' k' m', s.act ua ub x = some s' ∧ Rel ua ub good k' s' m' ∧ (k' < k ∨ (k' = k ∧ s'.rest < s.rest))) ∨
      Dead ua ub s m := by
  rcases s.a.arrive_rest with ⟨ha1, ha2⟩ | ⟨h1, h2⟩
  rotate_left
  · exact Or.inl ⟨.arriveA, _, k, m, rfl, ⟨h.ok, h.a.arrive, h.b⟩, Or.inr ⟨rfl, by simp only [Duo.rest, h2]; omega⟩⟩
  rcases s.b.arrive_rest with ⟨hb1, hb2⟩ | ⟨h1, h2⟩
  rotate_left
  · exact Or.inl ⟨.arriveB, _, k, m, rfl, ⟨h.ok, h.a, h.b.arrive⟩, Or.inr ⟨rfl, by simp only [Duo.rest, h2]; omega⟩⟩
  rcases s.a.send_rest with ⟨ha3, ha4⟩ | ⟨h1, h2⟩
  rotate_left
  · exact Or.inl ⟨.sendA, _, k, m, rfl, ⟨h.ok, h.a.send, h.b⟩, Or.inr ⟨rfl, by simp only [Duo.rest, h2]; omega⟩⟩
  rcases s.b.send_rest with ⟨hb3, hb4⟩ | ⟨h1, h2⟩
  rotate_left
  · exact Or.inl ⟨.sendB, _, k, m, rfl, ⟨h.ok, h.a, h.b.send⟩, Or.inr ⟨rfl, by simp only [Duo.rest, h2]; omega⟩⟩
  obtain ⟨la, oa, ka, ma, hta, hxa, haa, hba, hka⟩ := dev_tick (sd := false) (ua := ua) (ub := ub) h.a h.ok
  rcases hka with ⟨-, rfl, rfl, -, hra⟩ | hka
  rotate_left
  · left
    refine ⟨.tickA, ⟨s.a.after ua la oa, s.b.receive oa⟩, ka, ma, by simp only [Duo.act, hta], ⟨hxa, haa, ?_⟩, Or.inl hka⟩
    have : ma.b = m.b.receive oa := hba
    rw [this]
    exact h.b.receive oa
  obtain ⟨lb, ob, kb, mb, htb, hxb, hab, hbb, hkb⟩ := dev_tick (sd := true) (ua := ua) (ub := ub) h.b h.ok
  rcases hkb with ⟨-, rfl, rfl, -, hrb⟩ | hkb
  rotate_left
  · left
    refine ⟨.tickB, ⟨s.a.receive ob, s.b.after ub lb ob⟩, kb, mb, by simp only [Duo.act, htb], ⟨hxb, ?_, hab⟩, Or.inl hkb⟩
    have : mb.a = m.a.receive ob := hbb
    rw [this]
    exact h.a.receive ob
  right
  refine ⟨?_, ha2, hb2, ?_⟩
  · have hA := no_moves_side h.a ha2 ha4 hra
    have hB := no_moves_side h.b hb2 hb4 hrb
    simp [MSys.moves, hA, hB]
  · intro x
    cases x with
    | tickA => simp only [Duo.act, hta, Dev.after_nil, Dev.receive_nil]
    | tickB => simp only [Duo.act, htb, Dev.after_nil, Dev.receive_nil]
    | arriveA => simp only [Duo.act, ha1]
    | arriveB => simp only [Duo.act, hb1]
    | sendA => simp only [Duo.act, ha3]
    | sendB => simp only [Duo.act, hb3]

/-! ## Infinite schedules -/

/-- The state after the first `n` events of a schedule. -/
def Duo.at (ua ub : User) (s : Duo) (σ : Nat → Act) (n : Nat) : Option Duo := s.run ua ub ((List.range n).map σ)

theorem run_append (ua ub : User) : ∀ (xs : List Act) (s : Duo) (x : Act),
    s.run ua ub (xs ++ [x]) = (s.run ua ub xs).bind (fun s' => s'.act ua ub x)
  | [], s, x => by
    simp only [List.nil_append, Duo.run, Option.bind_some]
    cases s.act ua ub x <;> rfl
  | y :: xs, s, x => by
    simp only [List.cons_append, Duo.run]
    cases s.act ua ub y with
    | none => rfl
    | some s' => exact run_append ua ub xs s' x

theorem at_succ (ua ub : User) (s : Duo) (σ : Nat → Act) (n : Nat) :
    s.at ua ub σ (n + 1) = (s.at ua ub σ n).bind (fun s' => s'.act ua ub (σ n)) := by
  unfold Duo.at
  rw [List.range_succ, List.map_append, List.map_singleton, run_append]

theorem fair_dead {ua ub : User} {good : MSys → Bool} {s0 : Duo} {σ : Nat → Act} (fair : ∀ x n, ∃ m, n ≤ m ∧ σ m = x) :
    ∀ (k r n : Nat) (s : Duo) (m : MSys), s0.at ua ub σ n = some s → Rel ua ub good k s m → s.rest = r →
    ∃ n' s' m' k', s0.at ua ub σ n' = some s' ∧ Rel ua ub good k' s' m' ∧ Dead ua ub s' m' := by
  intro k
  induction k using Nat.strongRecOn with
  | _ k ihk =>
  intro r
  induction r using Nat.strongRecOn with
  | _ r ihr =>
  intro n s m hn hrel hr
  have step : ∀ n s' k' m', s0.at ua ub σ n = some s' → Rel ua ub good k' s' m' →
      (k' < k ∨ (k' = k ∧ s'.rest < s.rest)) →
      ∃ n' s' m' k', s0.at ua ub σ n' = some s' ∧ Rel ua ub good k' s' m' ∧ Dead ua ub s' m' := by
    intro n s' k' m' h1 h2 h3
    rcases h3 with h3 | ⟨rfl, h3⟩
    · exact ihk k' h3 _ _ _ _ h1 h2 rfl
    · exact ihr _ (by omega) _ _ _ h1 h2 rfl
  rcases progress hrel with ⟨x, s1, k1, m1, ha, hrel1, hlt⟩ | hd
  rotate_left
  · exact ⟨n, s, m, k, hn, hrel, hd⟩
  obtain ⟨j, hj, hσ⟩ := fair x n
  -- until `x` happens the state is unchanged, or has made progress already
  have wait : ∀ i, s0.at ua ub σ (n + i) = some s ∨
      ∃ n' s' k' m', s0.at ua ub σ n' = some s' ∧ Rel ua ub good k' s' m' ∧ (k' < k ∨ (k' = k ∧ s'.rest < s.rest)) := by
    intro i
    induction i with
    | zero => exact Or.inl hn
    | succ i ih =>
      rcases ih with ih | ih
      · obtain ⟨s', k', m', h1, h2, h3⟩ := act_sim hrel (σ (n + i))
        have hat : s0.at ua ub σ (n + (i + 1)) = some s' := by
          rw [← Nat.add_assoc, at_succ, ih]
          exact h1
        rcases h3 with ⟨rfl, -, -⟩ | h3
        · exact Or.inl hat
        · exact Or.inr ⟨_, s', k', m', hat, h2, h3⟩
      · exact Or.inr ih
  rcases wait (j - n) with h | ⟨n', s', k', m', h1, h2, h3⟩
  · rw [Nat.add_sub_cancel' hj] at h
    have hat : s0.at ua ub σ (j + 1) = some s1 := by
      rw [at_succ, h, hσ]
      exact ha
    exact step _ _ _ _ hat hrel1 hlt
  · exact step _ _ _ _ h1 h2 h3

theorem dead_stays {ua ub : User} {s0 s : Duo} {m : MSys} {σ : Nat → Act} {n : Nat} (h : s0.at ua ub σ n = some s)
    (hd : Dead ua ub s m) : ∀ i, s0.at ua ub σ (n + i) = some s
  | 0 => h
  | i + 1 => by
    rw [← Nat.add_assoc, at_succ, dead_stays h hd i]
    exact hd.still _

end Verif.Lmp
