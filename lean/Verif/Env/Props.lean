import Verif.Env.StartLemmas
/-!
# C99: the servers of the desktop program

For every number of controllers in the configuration and every history of clients that connect, send commands of the test
channel and leave, and of the program's three threads, of fewer than 2^30 steps.
-/

namespace Verif.Env
open Verif.Phy (Config PhyType Present PhyPresent DeviceLists)

/-- The start-up of a program with `n` controllers, with nothing in between. -/
def startUp (n : Nat) (sniffer : Bool) : List Act := (bootSteps n sniffer).flatMap (fun _ => [.boot, .finish .main])

/-- A client is let in at a port, without anything in between. -/
def enter (p : Port) : List Act := [.connect p, .accept p, .finish .watcher]

def doTask : List Act := [.task, .finish .tasks]

/-! ## Controllers -/

/-- Every client of the servers of the controllers gets a controller of its own, in the order in which they were accepted:
nobody gets two, no device stands for two clients, and when there is nothing left to do everybody who was accepted has got
one. -/
theorem C99_own_controller (cfg : Config) (n : Nat) (sniffer : Bool) (acts : List Act) (s : Sys) (outs : List Out)
    (h : Gets cfg n sniffer acts s outs) :
    ((controllers outs).map (·.1)).Nodup ∧ ((standins outs).map (·.2)).Nodup ∧ (controllers outs).map (·.1) <+: admitted outs ∧
      (admitted outs).Nodup ∧ (AtRest s → (controllers outs).map (·.1) = admitted outs) := by
  have hi := inv_of h
  have hsub : ∀ outs : List Out, (admitted outs).Sublist (accepted outs) := by
    intro outs
    induction outs with
    | nil => exact List.Sublist.slnil
    | cons x outs ih =>
      have e1 : admitted (x :: outs) = admitted [x] ++ admitted outs := admitted_append [x] outs
      have e2 : accepted (x :: outs) = accepted [x] ++ accepted outs := List.filterMap_append (l := [x])
      rw [e1, e2]
      refine List.Sublist.append ?_ ih
      cases x with
      | accepted p c => cases p <;> simp [admitted, accepted]
      | _ => simp [admitted, accepted]
  have hn : (admitted outs).Nodup := (hsub outs).nodup ((List.sublist_append_left _ _).nodup hi.names)
  have hp : (controllers outs).map (·.1) <+: admitted outs := by
    rw [hi.order, List.append_assoc, List.append_assoc]
    exact List.prefix_append _ _
  refine ⟨hp.sublist.nodup hn, ?_, hp, hn, ?_⟩
  · rw [← hi.socks, List.map_map]
    exact hi.distinct
  · intro hr
    rw [hi.order, hr.2.1, hr.2.2.2.1, hr.2.2.2.2]
    simp [taskClients, watcherClients]

/-- Two clients at the first server and one at the second, accepted while the first controller is being made. -/
example : (run Config.default (Sys.init 2 false) (startUp 2 false ++ [.connect (.hci 0), .connect (.hci 1), .connect (.hci 0), .accept (.hci 0), .finish .watcher,
    .task, .accept (.hci 1), .finish .tasks, .finish .watcher, .accept (.hci 0), .finish .watcher] ++ doTask ++ doTask)).outs =
  some [.accepted (.hci 0) 0, .accepted (.hci 1) 1, .controller 0 2, .accepted (.hci 0) 2, .controller 1 3, .controller 2 4] := by decide +kernel

/-- The controller a client gets is a device there was never before. It is put on every phy there is at that time; nothing
else changes among the devices and the phys. -/
theorem C99_placed (cfg : Config) (n : Nat) (sniffer : Bool) (as bs : List Act) (a : Act) (s₀ s₁ s₂ : Sys) (o₀ o₁ o₂ : List Out) (c d : Nat)
    (hl : (as ++ bs ++ [a]).length < 2 ^ 30) (h₀ : run cfg (Sys.init n sniffer) as = .ok s₀ o₀) (h₁ : run cfg s₀ bs = .ok s₁ o₁)
    (h₂ : step cfg s₁ a = .ok s₂ o₂) (hc : (c, d) ∈ controllers o₂) :
    ¬ Present s₀.model d ∧
    (∀ x p, DeviceLists s₂.model x p ↔ DeviceLists s₁.model x p ∨ (x = d ∧ ∃ t, PhyPresent s₁.model p t)) ∧
    (∀ x, Present s₂.model x ↔ Present s₁.model x ∨ x = d) ∧
    (∀ p t, PhyPresent s₂.model p t ↔ PhyPresent s₁.model p t) := by
  simp only [List.length_append, List.length_singleton] at hl
  have hg0 : Gets cfg n sniffer as s₀ o₀ := ⟨by omega, h₀⟩
  have hg1 : Gets cfg n sniffer (as ++ bs) s₁ (o₀ ++ o₁) := ⟨by simp only [List.length_append]; omega, by rw [run_append, h₀]; simp only [h₁]⟩
  have hi0 := inv_of hg0
  have hi1 := inv_of hg1
  obtain ⟨m, e1, e2, e3, e4⟩ : ∃ m, newController cfg s₁.model = some m ∧ s₂.model = m ∧ d = s₁.model.nextDev ∧ True := by
    have hd := did h₂
    cases hd with
    | controller t c' m h1 hm =>
      simp only [controllers, List.filterMap_cons, List.filterMap_nil, List.mem_singleton, Prod.mk.injEq] at hc
      exact ⟨m, hm, by cases t <;> rfl, hc.2, trivial⟩
    | booted t k m ts x y => rw [(answer_none s₁ none).2.1] at hc; cases hc
    | commanded t c' k m ts x y => rw [(answer_none s₁ (some c')).2.1] at hc; cases hc
    | _ => simp [controllers] at hc
  subst e2 e3
  obtain ⟨g1, g2, g3⟩ := newController_spec hi1.phy (by simp only [List.length_append]; omega) e1
  refine ⟨?_, g1, g2, g3⟩
  intro hp
  have hu := used_of_present hi0.phy hp
  have : Used s₁.model.nextDev s₁.model := by
    have := invariant (cfg := cfg) (Q := fun _ => True) (P := fun k s outs => Inv k s outs ∧ Used s₁.model.nextDev s.model)
      (fun k s outs a s' o hk _ hi hr => ⟨inv_step hk hi.1 (did hr), used_step hk hi.1.phy hi.2 (did hr)⟩)
      bs as.length s₀ o₀ s₁ o₁ (by omega) (fun _ _ => trivial) ⟨hi0, hu⟩ h₁
    exact this.2
  exact Nat.lt_irrefl _ this.1

/-- A third phy is there when the client comes, and the controller of somebody who left is not there any more. -/
example : ∃ s₁ s₂ o₁ o₂, run Config.default (Sys.init 1 false) (startUp 1 false ++ enter .test ++ [.read 0 (some (.addPhy .lowEnergy))] ++ doTask ++ enter (.hci 0) ++ doTask ++
      [.leave 1, .tick [2], .finish .tasks] ++ doTask ++ enter (.hci 0) ++ [.task]) = .ok s₁ o₁ ∧
    step Config.default s₁ (.finish .tasks) = .ok s₂ o₂ ∧ (2, 3) ∈ controllers o₂ ∧ DeviceLists s₂.model 3 2 ∧ ¬ Present s₁.model 2 := by
  have h : ((run Config.default (Sys.init 1 false) (startUp 1 false ++ enter .test ++ [.read 0 (some (.addPhy .lowEnergy))] ++ doTask ++ enter (.hci 0) ++ doTask ++
      [.leave 1, .tick [2], .finish .tasks] ++ doTask ++ enter (.hci 0) ++ [.task])).state.bind (fun s => ((step Config.default s (.finish .tasks)).outs.bind (fun o =>
        (step Config.default s (.finish .tasks)).state.map (fun s' =>
          decide ((2, 3) ∈ controllers o) && s'.model.devs.any (fun x => x.id = 3 && 2 ∈ x.phys) && !(s.model.hasDev 2)))))) = some true := by decide +kernel
  revert h
  cases h1 : run Config.default (Sys.init 1 false) (startUp 1 false ++ enter .test ++ [.read 0 (some (.addPhy .lowEnergy))] ++ doTask ++ enter (.hci 0) ++ doTask ++
      [.leave 1, .tick [2], .finish .tasks] ++ doTask ++ enter (.hci 0) ++ [.task]) with
  | ok s₁ o₁ =>
    simp only [Res.state, Option.bind_some]
    cases h2 : step Config.default s₁ (.finish .tasks) with
    | ok s₂ o₂ =>
      simp only [Res.outs, Option.bind_some, Option.map_some, Option.some.injEq, Bool.and_eq_true, decide_eq_true_eq, List.any_eq_true, Bool.not_eq_true', Phy.Model.hasDev, List.any_eq_false]
      rintro ⟨⟨g1, x, hx, g2, g3⟩, g4⟩
      exact ⟨s₁, s₂, o₁, o₂, rfl, h2, g1, ⟨x, hx, g2, g3⟩, fun ⟨y, hy, hd⟩ => by have := g4 y hy; simp [hd] at this⟩
    | _ => simp [Res.outs]
  | _ => simp [Res.state]

/-! ## Ports -/

/-- A port is never deaf: after the start-up, when the watcher is idle, a client that waits at any of the ports can be
accepted, and the first that came is. At the ports of the controllers nothing can go wrong with that. -/
theorem C99_listens (cfg : Config) (n : Nat) (sniffer : Bool) (acts : List Act) (s : Sys) (outs : List Out) (h : Gets cfg n sniffer acts s outs)
    (hb : s.boot = [] ∧ s.main = none ∧ s.watcher = none) (p : Port) (hp : p ∈ ports n) (c : Client)
    (hc : s.waiting.find? (fun e => e.1 = p) = some (p, c)) :
    (step cfg s (.accept p) = .race ∨ ∃ s', step cfg s (.accept p) = .ok s' [.accepted p c] ∧ s'.watcher = some (.accept p c) ∧ (p, c) ∉ s'.waiting) ∧
    ∀ i, p = .hci i → step cfg s (.accept p) ≠ .race := by
  have hi := inv_of h
  have ho := along (J := fun s _ => ∀ p ∈ ports n, Opens s p) (Q := fun _ => True) h (fun _ _ => trivial) (fun p hp => opens_init n sniffer p hp)
    (fun k s outs a s' o _ _ hi hj hd p hp => opens_step hi.typed hd p (hj p hp)) p hp
  have hl : p ∈ s.listening := by
    rcases ho with h | ⟨c, h⟩ | h | h
    · exact h
    · rw [hb.2.2] at h; cases h
    · rw [hb.2.1] at h; cases h
    · rw [hb.1] at h; cases h
  have hs : step cfg s (.accept p) = begin_ { s with waiting := s.waiting.erase (p, c), listening := s.listening.erase p } .watcher (.accept p c) [.accepted p c] := by
    simp only [step, hb.2.2, hl, and_self, if_true, hc]
  have hnd : (s.waiting.map (·.2)).Nodup := (List.sublist_append_right _ _).nodup hi.names
  refine ⟨?_, ?_⟩
  · rw [hs]
    unfold begin_
    split
    · exact .inl rfl
    · refine .inr ⟨_, rfl, rfl, ?_⟩
      have : s.waiting.Nodup := List.Nodup.of_map _ hnd
      exact fun hm => by simpa using (List.Nodup.mem_erase_iff this).mp hm
  · rintro i rfl
    rw [hs]
    apply begin_not_race
    intro v _
    simp [clash, usesModel, usesHandler]

/-- A tick is running when somebody comes at the second server. -/
example : (run Config.default (Sys.init 2 false) (startUp 2 false ++ [.connect (.hci 1), .connect (.hci 1), .tick [], .accept (.hci 1)])).outs = some [.accepted (.hci 1) 0] ∧
    Port.hci 1 ∈ ports 2 := by decide +kernel

/-! ## Those who leave and those who stay -/

/-- After a client has gone, its controller is not there any more as soon as one tick has run and there is nothing left to do. -/
theorem C99_leaves (cfg : Config) (n : Nat) (sniffer : Bool) (acts bs : List Act) (s s' : Sys) (outs o : List Out) (c d : Nat) (l : List Nat)
    (hl : (acts ++ .tick l :: bs).length < 2 ^ 30) (h : run cfg (Sys.init n sniffer) acts = .ok s outs) (hc : (c, d) ∈ controllers outs)
    (hg : c ∈ s.gone) (hr : run cfg s (.tick l :: bs) = .ok s' o) (ht : s'.tasks = [] ∧ s'.task = none) : ¬ Present s'.model d := by
  simp only [List.length_append, List.length_cons] at hl
  have hi := inv_of (n := n) (acts := acts) ⟨by omega, h⟩
  obtain ⟨s1, c1, c2, h1, h2, rfl⟩ := run_cons_ok hr
  have hcl := hc
  rw [← hi.hci] at hcl
  obtain ⟨x, hx, he⟩ := List.mem_map.mp hcl
  have hx' := List.mem_filter.mp hx
  simp only [Prod.mk.injEq] at he
  have hu : Used d s.model := by rw [← he.2]; exact hi.used x hx'.1
  have hle : Leaving d s1 := by
    have hd := did h1
    refine ⟨used_step (by omega) hi.phy hu hd, ?_⟩
    cases hd with
    | tick l _ _ _ hm =>
      by_cases hp : Present s.model d
      · refine .inr (.inr (.inr ⟨l, rfl, ?_⟩))
        have := List.all_eq_true.mp hm x hx'.1
        have hh : s.model.hasDev x.dev = true := by
          obtain ⟨y, hy, hyd⟩ := hp
          exact List.any_eq_true.mpr ⟨y, hy, by simp [hyd, he.2]⟩
        have hxh : x.hci = true := hx'.2
        rw [hxh, hh, he.1, he.2] at this
        simpa [hg] using this
      · exact .inl hp
  have := invariant (cfg := cfg) (Q := fun _ => True) (P := fun k s outs => Inv k s outs ∧ Leaving d s)
      (fun k s outs a s' o hk _ hi hr => ⟨inv_step hk hi.1 (did hr), leaving_step hk hi.1 (did hr) hi.2⟩)
      bs (acts.length + 1) s1 (outs ++ c1) s' c2 (by omega) (fun _ _ => trivial) ⟨inv_step (by omega) hi (did h1), hle⟩ h2
  rcases this.2.2 with g | g | g | ⟨l, g, -⟩
  · exact g
  · rw [ht.1] at g; cases g
  · rw [ht.2] at g; cases g
  · rw [ht.2] at g; cases g

/-- One of two clients leaves. -/
example : (run Config.default (Sys.init 1 false) (startUp 1 false ++ enter (.hci 0) ++ enter (.hci 0) ++ doTask ++ doTask ++ [.leave 0, .tick [2], .finish .tasks] ++ doTask)).state.map
    (fun s => (s.gone, s.model.devs.map (·.id), s.tasks, s.task)) = some ([0], [0, 1, 3], [], none) := by decide +kernel

/-- As long as no client of the test channel removes it or resets the model, the device of a client that has not gone stays. -/
theorem C99_stays (cfg : Config) (n : Nat) (sniffer : Bool) (acts : List Act) (s : Sys) (outs : List Out) (c d : Nat) (h : Gets cfg n sniffer acts s outs)
    (hq : ∀ a ∈ acts, ∀ c, a ≠ .read c (some (.del d)) ∧ a ≠ .read c (some .reset)) (hc : (c, d) ∈ standins outs) (hg : c ∉ s.gone) : Present s.model d :=
  (along (J := Stays d) (Q := fun a => ∀ c, a ≠ .read c (some (.del d)) ∧ a ≠ .read c (some .reset)) h hq (stays_init n sniffer d)
    (fun _ _ _ _ _ _ hk hq hi hj hd => stays_step hk hq hi hj hd)).here c hc hg

/-- Both hypotheses are needed. -/
example : (run Config.default (Sys.init 1 false) (startUp 1 false ++ enter (.hci 0) ++ doTask ++ enter .test ++ [.read 1 (some (.del 2))] ++ doTask)).state.map (·.model.hasDev 2) = some false ∧
    (run Config.default (Sys.init 1 false) (startUp 1 false ++ enter (.hci 0) ++ doTask ++ enter .link ++ [.tick [], .leave 1, .finish .tasks, .tick [3], .finish .tasks] ++ doTask)).state.map
      (fun s => s.model.devs.map (·.id)) = some [0, 1, 2] ∧
    (run Config.default (Sys.init 1 false) (startUp 1 false ++ enter (.hci 0) ++ doTask ++ enter .test ++ [.read 1 (some .reset)] ++ doTask ++ doTask)).state.map (·.model.hasDev 2) = some false := by
  decide +kernel

/-! ## The test channel -/

/-- At most one client at a time is heard on the test channel. When somebody comes, they are let in when nobody is heard, and
sent away when somebody is. Once the one that is heard has gone, nobody is. -/
theorem C99_testers (cfg : Config) (n : Nat) (sniffer : Bool) (acts : List Act) (s s' : Sys) (outs : List Out) (h : Gets cfg n sniffer acts s outs) :
    s.reading.length ≤ 1 ∧
    (∀ t c, s.doing t = some (.accept .test c) → s.reading = [] → ∃ s', step cfg s (.finish t) = .ok s' [.greeted c] ∧ s'.reading = [c] ∧ s'.answers = some c) ∧
    (∀ t c, s.doing t = some (.accept .test c) → s.reading ≠ [] → ∃ s', step cfg s (.finish t) = .ok s' [.refused c] ∧ s'.reading = s.reading ∧ s'.answers = s.answers) ∧
    (∀ c o, step cfg s (.read c none) = .ok s' o → s.reading = [c] ∧ s'.reading = []) := by
  have hr := along (J := fun s _ => OneReader s) (Q := fun _ => True) h (fun _ _ => trivial) (.inr ⟨rfl, rfl⟩)
    (fun _ _ _ _ _ _ _ _ _ hj hd => reader_step hd hj)
  refine ⟨?_, ?_, ?_, ?_⟩
  · rcases hr with ⟨-, c, hr⟩ | ⟨-, hr⟩ <;> rw [hr] <;> simp
  · intro t c hd h0
    have ho : (free s t).testOpen = false := by
      rw [(free_more s t).2.2.2.1]
      rcases hr with ⟨-, c, hr⟩ | ⟨hr, -⟩
      · rw [hr] at h0; cases h0
      · exact hr
    simp only [step, hd, effect, accept, ho]
    exact ⟨_, rfl, by simp [(free_more s t).2.2.1, h0], rfl⟩
  · intro t c hd h0
    have ho : (free s t).testOpen = true := by
      rw [(free_more s t).2.2.2.1]
      rcases hr with ⟨hr, -⟩ | ⟨-, hr⟩
      · exact hr
      · exact absurd hr h0
    simp only [step, hd, effect, accept, ho, if_true]
    exact ⟨_, rfl, (free_more s t).2.2.1, (free_more s t).2.2.2.2.1⟩
  · intro c o hs
    have hd := did hs
    cases hd with
    | shut c hw0 hc =>
      rcases hr with ⟨-, c', hr⟩ | ⟨-, hr⟩
      · rw [hr, List.mem_singleton] at hc
        subst hc
        exact ⟨hr, by simp [hr]⟩
      · rw [hr] at hc; cases hc

/-- The second is sent away, the third comes when the first has gone. -/
example : (run Config.default (Sys.init 0 false) (startUp 0 false ++ enter .test ++ enter .test ++ [.read 0 none] ++ enter .test)).outs =
  some [.accepted .test 0, .greeted 0, .accepted .test 1, .refused 1, .accepted .test 2, .greeted 2] := by decide +kernel

/-- Full statement: the answer to a command goes to the client that sent it. Proved when at most one client of the test channel
was ever let in; otherwise see C99_answers_violated. -/
theorem C99_answers_partial (cfg : Config) (n : Nat) (sniffer : Bool) (acts : List Act) (s : Sys) (outs : List Out) (h : Gets cfg n sniffer acts s outs)
    (h1 : (testers outs).length ≤ 1) (a : Client) (c : Client) (ha : (some a, c) ∈ answers outs) : a = c := by
  have hk := along (J := Known) (Q := fun _ => True) h (fun _ _ => trivial)
    ⟨by simp [Sys.init], by simp [Sys.init], by simp [Sys.init], by simp [Sys.init], by simp [answers]⟩
    (fun _ _ _ _ _ _ _ _ hi hj hd => known_step hi.typed hd hj)
  obtain ⟨g1, g2⟩ := hk.answered _ ha
  have g2 := g2 a rfl
  match ht : testers outs with
  | [] => rw [ht] at g1; cases g1
  | [x] =>
    rw [ht, List.mem_singleton] at g1 g2
    rw [g2]
    exact g1.symm
  | _ :: _ :: _ => rw [ht] at h1; simp at h1

example : (run Config.default (Sys.init 0 false) (startUp 0 false ++ enter .test ++ [.read 0 (some .other)] ++ doTask)).outs =
  some [.accepted .test 0, .greeted 0, .answer (some 0) 0] := by decide +kernel

/-- The first client sends a command and closes; the next one is let in before the command has run, and gets the answer. -/
theorem C99_answers_violated : ∃ acts s outs, Gets Config.default 0 false acts s outs ∧ (some 0, 1) ∈ answers outs := by
  have h : (run Config.default (Sys.init 0 false) (startUp 0 false ++ enter .test ++ [.read 0 (some .other), .read 0 none] ++ enter .test ++ doTask)).outs.map answers =
    some [(some 0, 1)] := by decide +kernel
  cases h1 : run Config.default (Sys.init 0 false) (startUp 0 false ++ enter .test ++ [.read 0 (some .other), .read 0 none] ++ enter .test ++ doTask) with
  | ok s o =>
    rw [h1] at h
    exact ⟨_, s, o, ⟨by decide, h1⟩, by rw [Option.some.inj h]; simp⟩
  | _ => rw [h1] at h; cases h

/-! ## Data races -/

/-- Full statement: no two threads ever use the devices, the phys or the command handler at the same time. Proved while the
program is not at its own commands or its sniffer, for programs without clients at the two ports for link-layer packets and of
which no client of the test channel goes away; otherwise see C99_race_violated. -/
theorem C99_race_partial (cfg : Config) (n : Nat) (sniffer : Bool) (acts : List Act) (s : Sys) (outs : List Out) (h : Gets cfg n sniffer acts s outs)
    (hq : ∀ a ∈ acts, a ≠ .connect .link ∧ a ≠ .connect .ble ∧ ∀ c, a ≠ .read c none) (hb : (∀ b, s.boot.head? = some b → ∃ p, b = .listen p) ∧ ∀ w, s.main = some w → ∃ p, w = .boot (.listen p)) (a : Act) :
    step cfg s a ≠ .race := by
  have hi := inv_of h
  have hT := hi.typed
  have hk := along (J := Known) (Q := fun _ => True) h (fun _ _ => trivial)
    ⟨by simp [Sys.init], by simp [Sys.init], by simp [Sys.init], by simp [Sys.init], by simp [answers]⟩
    (fun _ _ _ _ _ _ _ _ hi hj hd => known_step hi.typed hd hj)
  have hl := along (J := NoLink) (Q := fun a => a ≠ .connect .link ∧ a ≠ .connect .ble ∧ ∀ c, a ≠ .read c none) h hq
    ⟨by simp [Sys.init], by simp [Sys.init], by simp [testers]⟩
    (fun _ _ _ _ _ _ _ hq hi hj hd => nolink_step hi.typed hq hd hj)
  have inTask : ∀ w, s.task = some w → (∃ l, w = .tick l) ∨ ∃ t, w = .task t ∧ ∀ c k, t = .command c k → c ∈ testers outs := by
    intro w hw
    rcases hT.task w hw with ⟨t, rfl⟩ | ⟨l, rfl⟩
    · exact .inr ⟨t, rfl, fun c k ht => by subst ht; exact hk.task c k hw⟩
    · exact .inl ⟨l, rfl⟩
  have tasksBegin : ∀ w, s.task = none → ((∃ l, w = .tick l) ∨ ∃ t, w = .task t ∧ ∀ c k, t = .command c k → c ∈ testers outs) →
      ∀ v ∈ s.works, clash s w v = false := by
    intro w h0 hw v hv
    simp only [Sys.works, h0, Option.toList_none, List.append_nil, List.mem_append, Option.mem_toList] at hv
    rcases hv with hv | hv
    · obtain ⟨p, rfl⟩ := hb.2 v hv
      simp [clash, usesModel, usesHandler]
    · obtain ⟨p, c, rfl⟩ := hT.watcher v hv
      exact (no_clash hl (hl.watcher p c hv) hw).2
  cases a with
  | connect p => simp [step]
  | leave c => simp only [step]; split <;> simp
  | boot =>
    simp only [step]
    split
    · rename_i b bs _ hbs
      obtain ⟨p, rfl⟩ := hb.1 b (by rw [hbs]; rfl)
      apply begin_not_race
      intro v _
      simp [clash, usesModel, usesHandler]
    · simp
  | accept p =>
    simp only [step]
    split
    · rename_i hw
      split
      · rename_i e he
        apply begin_not_race
        intro v hv
        have hv : v ∈ s.works := hv
        simp only [Sys.works, hw.1, Option.toList_none, List.append_nil, List.mem_append, Option.mem_toList] at hv
        rcases hv with hv | hv
        · obtain ⟨p, rfl⟩ := hb.2 v hv
          simp [clash, usesModel, usesHandler]
        have hp : e.1 = p := by simpa using List.find?_some he
        have := hl.waiting e (List.mem_of_find?_eq_some he)
        rw [hp] at this
        exact (no_clash hl this (inTask v hv)).1
      · simp
    · simp
  | read c k => simp only [step]; split <;> (try split) <;> simp
  | task =>
    simp only [step]
    split
    · rename_i t ts h0 ht
      apply begin_not_race
      exact tasksBegin _ h0 (.inr ⟨t, rfl, fun c k he => hk.tasks c k (by rw [ht, ← he]; exact List.mem_cons_self)⟩)
    · simp
  | tick l =>
    simp only [step]
    split
    · rename_i hc
      exact begin_not_race (tasksBegin _ hc.1 (.inl ⟨l, rfl⟩))
    · simp
  | finish t =>
    simp only [step]
    split
    · exact effect_not_race _ _ _
    · simp

/-- Works that overlap: a controller is accepted during a tick, and a second client of the test channel during a command. -/
example : (run Config.default (Sys.init 1 false) (startUp 1 false ++ enter .test ++ [.read 0 (some .other), .task, .connect (.hci 0), .accept (.hci 0), .finish .watcher,
    .connect .test, .accept .test, .finish .tasks, .tick [], .finish .watcher, .finish .tasks])).outs.map List.length = some 6 := by decide +kernel

/-- A client of the test channel is taken while the program begins to listen for link-layer packets. -/
example : (run Config.default (Sys.init 0 false) ((startUp 0 false).take 16 ++ [.boot, .connect .test, .accept .test, .finish .watcher])).outs =
    some [.accepted .test 0, .greeted 0] := by decide +kernel

/-- The link-layer servers add devices on the thread of the watcher, and the test channel takes a new client there: a tick, the
task that adds a controller or a command of the client before can be running. So can a tick while the sniffer is added, and a client of the test channel can be
taken while the program still uses the command handler itself. -/
theorem C99_race_violated :
    run Config.default (Sys.init 1 false) (startUp 1 false ++ [.connect .link, .tick [], .accept .link]) = .race ∧
    run Config.default (Sys.init 1 false) (startUp 1 false ++ enter (.hci 0) ++ [.connect .ble, .task, .accept .ble]) = .race ∧
    run Config.default (Sys.init 1 false) (startUp 1 false ++ enter .test ++ [.read 0 (some .other), .read 0 none, .connect .test, .task, .accept .test]) = .race ∧
    run Config.default (Sys.init 0 true) ((startUp 0 true).take 20 ++ [.tick [], .boot]) = .race ∧
    run Config.default (Sys.init 0 false) ((startUp 0 false).take 3 ++ [.connect .test, .accept .test]) = .race := by decide +kernel

/-! ## The end -/

/-- Full statement: no client of the test channel can make the process terminate otherwise than by ending the simulation. Proved
for histories in which the simulation is ended at most once; otherwise see C99_end_violated. -/
theorem C99_end_partial (cfg : Config) (n : Nat) (sniffer : Bool) (acts : List Act) (s : Sys) (outs : List Out) (h : Gets cfg n sniffer acts s outs)
    (hq : acts.countP Act.ends ≤ 1) (a : Act) : step cfg s a ≠ .terminated := by
  intro ht
  have h1 := terminated_two (inv_of h).typed ht
  have h2 := ends_run acts (typed_init n sniffer) h.2
  have h4 : (Sys.init n sniffer).ends = 0 := rfl
  omega

example : (run Config.default (Sys.init 0 false) (startUp 0 false ++ enter .test ++ [.read 0 (some .endSimulation)] ++ doTask)).outs = some [.accepted .test 0, .greeted 0, .ended] ∧
    ((startUp 0 false ++ enter .test ++ [.read 0 (some .endSimulation)] ++ doTask : List Act)).countP Act.ends = 1 := by decide +kernel

/-- The second END_SIMULATION terminates the process by an exception. -/
theorem C99_end_violated : run Config.default (Sys.init 0 false)
    (startUp 0 false ++ enter .test ++ [.read 0 (some .endSimulation), .read 0 (some .endSimulation)] ++ doTask ++ doTask) = .terminated := by decide +kernel

/-! ## The clock -/

/-- Full statement: after the timer has been stopped, or the model reset, time stands still until it is started again. Proved for
histories in which no client of the test channel starts the timer; otherwise see C99_clock_violated. -/
theorem C99_clock_partial (cfg : Config) (n : Nat) (sniffer : Bool) (acts : List Act) (s s' : Sys) (outs o : List Out) (h : Gets cfg n sniffer acts s outs)
    (hq : ∀ a ∈ acts, ∀ c, a ≠ .read c (some .startTimer)) (t : Thread) (c : Client) (k : Cmd)
    (hk : k = .stopTimer ∨ k = .reset) (hd : s.doing t = some (.task (.command c k))) (hs : step cfg s (.finish t) = .ok s' o) (l : List Nat) :
    step cfg s' (.tick l) = .blocked := by
  have hc := along (J := fun s _ => OneClock s) (Q := fun a => ∀ c, a ≠ .read c (some .startTimer)) h hq (clock_init n sniffer)
    (fun _ _ _ _ _ _ _ hq hi hj hd => clock_step hi.typed hq hd hj)
  have hT := (inv_of h).typed
  have hz : s'.ticking = 0 := by
    have hc' := clock_step hT (fun _ h => by cases h) (did hs) hc
    have hd' := did hs
    obtain ⟨rfl, h4⟩ := hT.taskOf hd
    rw [hc'.clock]
    cases hd' with
    | commanded t c' k' m ts n b h0 h1 h2 h3 h5 =>
      rw [hd] at h1
      cases h1
      rcases hk with rfl | rfl <;> simp only [clock, Prod.mk.injEq] at h5 <;> rw [h5.2] <;> rfl
    | ended t c' h1 => rw [hd] at h1; cases h1; rcases hk with hk | hk <;> cases hk
    | _ => rename_i h1; (try rw [hd] at h1); (try cases h1)
  simp [step, hz]

example : (run Config.default (Sys.init 0 false) (startUp 0 false ++ enter .test ++ [.tick [], .finish .tasks, .read 0 (some .stopTimer)] ++ doTask ++ [.tick []])) = .blocked := by decide +kernel

/-- The timer is started when it runs already: the first one can not be stopped any more. -/
theorem C99_clock_violated : ∃ s o, run Config.default (Sys.init 0 false) (startUp 0 false ++ enter .test ++ [.read 0 (some .startTimer)] ++ doTask ++
      [.read 0 (some .stopTimer)] ++ doTask ++ [.read 0 (some .stopTimer)] ++ doTask ++ [.tick [], .finish .tasks, .tick []]) = .ok s o := by
  have h : (run Config.default (Sys.init 0 false) (startUp 0 false ++ enter .test ++ [.read 0 (some .startTimer)] ++ doTask ++
      [.read 0 (some .stopTimer)] ++ doTask ++ [.read 0 (some .stopTimer)] ++ doTask ++ [.tick [], .finish .tasks, .tick []])).outs.isSome := by decide +kernel
  revert h
  cases run Config.default (Sys.init 0 false) (startUp 0 false ++ enter .test ++ [.read 0 (some .startTimer)] ++ doTask ++
      [.read 0 (some .stopTimer)] ++ doTask ++ [.read 0 (some .stopTimer)] ++ doTask ++ [.tick [], .finish .tasks, .tick []]) with
  | ok s o => intro _; exact ⟨s, o, rfl⟩
  | _ => intro h; cases h

/-! ## What a simulation starts with -/

/-- Whoever connects to the controllers, and whenever: before the first of their servers listens the simulation has exactly a phy of
each type, and the two beacons on the one for low energy. -/
theorem C99_first (cfg : Config) (n : Nat) (sniffer : Bool) (acts : List Act) (s : Sys) (outs : List Out) (h : Gets cfg n sniffer acts s outs)
    (hq : ∀ a ∈ acts, a ≠ .connect .test ∧ a ≠ .connect .link ∧ a ≠ .connect .ble) (hb : s.main = none ∧ s.boot.length = n + (if sniffer then 1 else 0)) :
    s.model = firstDevices := by
  have hs := along (J := fun s _ => Start n sniffer s) (Q := fun a => a ≠ .connect .test ∧ a ≠ .connect .link ∧ a ≠ .connect .ble) h hq (start_init n sniffer)
    (fun _ _ _ _ _ _ hk hq hi hj hd => start_step hk hq hi hj hd)
  have hll : (late n sniffer).length = n + (if sniffer then 1 else 0) := by simp only [late]; cases sniffer <;> simp
  rcases hs.where_ with ⟨j, hj⟩ | ⟨-, hj⟩
  · rcases hj.place with ⟨-, hp⟩ | ⟨x, -, hp, -⟩
    · have := congrArg List.length hp
      rw [List.length_append, List.length_drop, early_length, hb.2, hll] at this
      have : j = 10 := by have := hj.le; omega
      subst this
      exact hj.model
    · rw [hb.1] at hp; cases hp
  · omega

/-- After the start-up both phys are there and no other, and the beacons are there and on their phy, whatever the clients of the
controllers do. -/
theorem C99_furnished (cfg : Config) (n : Nat) (sniffer : Bool) (acts : List Act) (s : Sys) (outs : List Out) (h : Gets cfg n sniffer acts s outs)
    (hq : ∀ a ∈ acts, a ≠ .connect .test ∧ a ≠ .connect .link ∧ a ≠ .connect .ble) (hb : s.main = none ∧ s.boot = []) : Furnished s.model := by
  have hs := along (J := fun s _ => Start n sniffer s) (Q := fun a => a ≠ .connect .test ∧ a ≠ .connect .link ∧ a ≠ .connect .ble) h hq (start_init n sniffer)
    (fun _ _ _ _ _ _ hk hq hi hj hd => start_step hk hq hi hj hd)
  rcases hs.where_ with ⟨j, hj⟩ | ⟨hl, -⟩
  · rcases hj.place with ⟨-, hp⟩ | ⟨x, -, hp, -⟩
    · rw [hb.2] at hp
      have hp := hp.symm
      have h1 := List.append_eq_nil_iff.mp hp
      have : j = 10 := by
        have := congrArg List.length h1.1
        rw [List.length_drop, early_length] at this
        have := hj.le
        simp at *
        omega
      subst this
      rw [hj.model]
      exact furnished_first
    · rw [hb.1] at hp; cases hp
  · exact hl.furnished

example : (run Config.default (Sys.init 1 true) (startUp 1 true ++ enter (.hci 0) ++ doTask ++ [.leave 0, .tick [3], .finish .tasks] ++ doTask)).state.map (fun s => (s.model.devs, s.model.phys)) =
  some ([⟨0, ⟨1, 0, 85, 1, 172, 190⟩, [1]⟩, ⟨1, ⟨2, 0, 85, 1, 172, 190⟩, [1]⟩, ⟨2, ⟨0xAD, 0xBB, 0xBB, 0xBB, 0xBB, 0xBB⟩, [0]⟩], [⟨0, .brEdr, [2]⟩, ⟨1, .lowEnergy, [0, 1]⟩]) := by
  decide +kernel

end Verif.Env
