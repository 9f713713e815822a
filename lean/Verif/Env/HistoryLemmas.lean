import Verif.Env.Lemmas
/-! # Invariants of the desktop program -/

namespace Verif.Env
open Verif.Phy (Config PhyType Op Present PhyPresent DeviceLists)

/-- Each thread does its own kind of work. -/
structure Typed (s : Sys) : Prop where
  main : ∀ w, s.main = some w → ∃ b, w = .boot b
  watcher : ∀ w, s.watcher = some w → ∃ p c, w = .accept p c
  task : ∀ w, s.task = some w → (∃ t, w = .task t) ∨ ∃ l, w = .tick l

theorem Typed.boot {s : Sys} (h : Typed s) {t : Thread} {b : Boot} (hd : s.doing t = some (.boot b)) : t = .main ∧ s.main = some (.boot b) := by
  cases t with
  | main => exact ⟨rfl, hd⟩
  | watcher => obtain ⟨p, c, hp⟩ := h.watcher _ hd; cases hp
  | tasks => rcases h.task _ hd with ⟨p, hp⟩ | ⟨p, hp⟩ <;> cases hp

theorem Typed.accept {s : Sys} (h : Typed s) {t : Thread} {p : Port} {c : Client} (hd : s.doing t = some (.accept p c)) :
    t = .watcher ∧ s.watcher = some (.accept p c) := by
  cases t with
  | main => obtain ⟨p, hp⟩ := h.main _ hd; cases hp
  | watcher => exact ⟨rfl, hd⟩
  | tasks => rcases h.task _ hd with ⟨p, hp⟩ | ⟨p, hp⟩ <;> cases hp

theorem Typed.taskOf {s : Sys} (h : Typed s) {t : Thread} {k : Task} (hd : s.doing t = some (.task k)) :
    t = .tasks ∧ s.task = some (.task k) := by
  cases t with
  | main => obtain ⟨p, hp⟩ := h.main _ hd; cases hp
  | watcher => obtain ⟨p, c, hp⟩ := h.watcher _ hd; cases hp
  | tasks => exact ⟨rfl, hd⟩

theorem Typed.tickOf {s : Sys} (h : Typed s) {t : Thread} {l : List Nat} (hd : s.doing t = some (.tick l)) :
    t = .tasks ∧ s.task = some (.tick l) := by
  cases t with
  | main => obtain ⟨p, hp⟩ := h.main _ hd; cases hp
  | watcher => obtain ⟨p, c, hp⟩ := h.watcher _ hd; cases hp
  | tasks => exact ⟨rfl, hd⟩

theorem typed_init (n : Nat) (b : Bool) : Typed (Sys.init n b) := ⟨by simp [Sys.init], by simp [Sys.init], by simp [Sys.init]⟩

theorem typed_free {s : Sys} (h : Typed s) (t : Thread) : Typed (free s t) := by
  cases t <;> refine ⟨?_, ?_, ?_⟩ <;> intro w hw <;>
    first | exact h.main w hw | exact h.watcher w hw | exact h.task w hw | cases hw

theorem typed_step {cfg : Config} {s s' : Sys} {a : Act} {o : List Out} (h : Typed s) (hd : Did cfg s a s' o) : Typed s' := by
  cases hd with
  | connect | leave | read | shut => exact ⟨h.main, h.watcher, h.task⟩
  | boot => exact ⟨by rintro w ⟨⟩; exact ⟨_, rfl⟩, h.watcher, h.task⟩
  | accept => exact ⟨h.main, by rintro w ⟨⟩; exact ⟨_, _, rfl⟩, h.task⟩
  | task => exact ⟨h.main, h.watcher, by rintro w ⟨⟩; exact .inl ⟨_, rfl⟩⟩
  | tick => exact ⟨h.main, h.watcher, by rintro w ⟨⟩; exact .inr ⟨_, rfl⟩⟩
  | listened t | booted t | commanded t | sniffed t | controller t | closed t | already t | ended t | cleared t | admitted t | joined t
  | refused t | greeted t | ticked t =>
    have := typed_free h t
    exact ⟨this.main, this.watcher, this.task⟩

/-! ## The devices -/

theorem free_model (s : Sys) (t : Thread) : (free s t).model = s.model := by cases t <;> rfl

/-- What a step does to the devices and phys: at most two operations. -/
theorem model_step {cfg : Config} {s s' : Sys} {a : Act} {o : List Out} (hd : Did cfg s a s' o) :
    ∃ ops : List Op, ops.length ≤ 2 ∧ Phy.run cfg s.model ops = some s'.model := by
  cases hd with
  | connect | leave | read | shut | boot | accept | task | tick => exact ⟨[], by simp, rfl⟩
  | listened t | already t | ended t | admitted t | refused t | greeted t | ticked t => exact ⟨[], by simp, by simp [Phy.run, free_model]⟩
  | booted t k m ts n b h1 h2 => exact ⟨_, by cases k <;> simp [Cmd.ops], h2⟩
  | commanded t c k m ts n b h0 h1 h2 => exact ⟨_, by cases k <;> simp [Cmd.ops], h2⟩
  | sniffed t m h1 h2 => exact ⟨_, by simp, h2⟩
  | controller t c m h1 h2 => exact ⟨_, by simp, h2⟩
  | joined t p c u m h1 h2 h3 => exact ⟨_, by simp, h3⟩
  | closed t d h1 h2 => exact ⟨[.removeDevice d], by simp, by simp [Phy.run, Phy.step]⟩
  | cleared t m h1 h2 => exact ⟨_, by simp, h2⟩

theorem phy_step {cfg : Config} {k : Nat} {s s' : Sys} {a : Act} {o : List Out} (hk : k + 1 < 2 ^ 30) (h : Phy.Inv (2 * k) s.model)
    (hd : Did cfg s a s' o) : Phy.Inv (2 * (k + 1)) s'.model := by
  obtain ⟨ops, hl, hr⟩ := model_step hd
  exact (Phy.inv_run ops (2 * k) _ _ h (by omega) hr).mono (by omega)

/-- An identifier that has been given to a device that is or was there. -/
def Used (d : Nat) (m : Phy.Model) : Prop := d < m.nextDev ∧ d ∉ m.loose.map (·.1)

theorem used_step {cfg : Config} {k d : Nat} {s s' : Sys} {a : Act} {o : List Out} (hk : k + 1 < 2 ^ 30) (h : Phy.Inv (2 * k) s.model)
    (hu : Used d s.model) (hd : Did cfg s a s' o) : Used d s'.model := by
  obtain ⟨ops, hl, hr⟩ := model_step hd
  exact Phy.used_run d ops (2 * k) _ _ h (by omega) hu.1 hu.2 hr

theorem gone_step {cfg : Config} {k d : Nat} {s s' : Sys} {a : Act} {o : List Out} (hk : k + 1 < 2 ^ 30) (h : Phy.Inv (2 * k) s.model)
    (hu : Used d s.model) (hg : ¬ Present s.model d) (hd : Did cfg s a s' o) : ¬ Present s'.model d := by
  obtain ⟨ops, hl, hr⟩ := model_step hd
  exact Phy.gone_run d ops (2 * k) _ _ h (by omega) hu.1 hu.2 hg hr

theorem used_of_present {k d : Nat} {m : Phy.Model} (h : Phy.Inv k m) (hp : Present m d) : Used d m := by
  have := (Phy.present_ids m d).mp hp
  exact ⟨h.devLt d this, fun hl => h.disj d hl this⟩

/-- A device that is constructed. -/
theorem construct_loose {cfg : Config} {m m1 : Phy.Model} (h : Phy.step cfg m (.construct none) = some m1) :
    m.nextDev ∈ m1.loose.map (·.1) ∧ (∀ x p, DeviceLists m1 x p ↔ DeviceLists m x p) ∧ (∀ x, Present m1 x ↔ Present m x) ∧
      (∀ p t, PhyPresent m1 p t ↔ PhyPresent m p t) := by
  simp only [Phy.step, Option.some.injEq] at h
  subst h
  exact ⟨by simp, fun _ _ => Iff.rfl, fun _ => Iff.rfl, fun _ _ => Iff.rfl⟩

theorem phys_addHci {cfg : Config} {k d : Nat} {m m' : Phy.Model} (h : Phy.Inv k m) (hd : d ∈ m.loose.map (·.1))
    (hs : Phy.step cfg m (.addHci d none) = some m') :
    (∀ x p, DeviceLists m' x p ↔ DeviceLists m x p ∨ (x = d ∧ ∃ t, PhyPresent m p t)) ∧
    (∀ x, Present m' x ↔ Present m x ∨ x = d) ∧ (∀ p t, PhyPresent m' p t ↔ PhyPresent m p t) := by
  obtain ⟨a₀, ha₀⟩ := Phy.looseAddr_some hd
  have hn := h.disj d hd
  simp only [Phy.step, ha₀] at hs
  split at hs
  · cases hs
  · rename_i g _
    simp only [Option.some.injEq] at hs
    obtain ⟨i1, i2, i3⟩ := Phy.registerOn_spec (Phy.addDevice_inv h g hd)
      ((Phy.addDevice_present hn d).mpr (Or.inr rfl)) (fun _ => true)
    subst hs
    refine ⟨?_, ?_, ?_⟩
    · intro x p
      simp only [Option.getD_none]
      rw [i3, Phy.addDevice_lists hn]
      simp [PhyPresent, Phy.addDevice]
    · intro x
      simp only [Option.getD_none]
      rw [i2.present, Phy.addDevice_present hn]
    · intro p t
      simp only [Option.getD_none]
      rw [i2.phyPresent]
      rfl

theorem phys_addLink {cfg : Config} {k d : Nat} {t : PhyType} {m m' : Phy.Model} (h : Phy.Inv k m) (hd : d ∈ m.loose.map (·.1))
    (hs : Phy.step cfg m (.addLinkLayer d t) = some m') :
    (∀ x p, DeviceLists m' x p ↔ DeviceLists m x p ∨ (x = d ∧ PhyPresent m p t)) ∧
    (∀ x, Present m' x ↔ Present m x ∨ x = d) ∧ (∀ p u, PhyPresent m' p u ↔ PhyPresent m p u) := by
  obtain ⟨a₀, ha₀⟩ := Phy.looseAddr_some hd
  have hn := h.disj d hd
  simp only [Phy.step, ha₀, Option.some.injEq] at hs
  obtain ⟨i1, i2, i3⟩ := Phy.registerOn_spec (Phy.addDevice_inv h a₀ hd)
    ((Phy.addDevice_present hn d).mpr (Or.inr rfl)) (fun u => u = t)
  subst hs
  refine ⟨?_, ?_, ?_⟩
  · intro x p
    rw [i3, Phy.addDevice_lists hn]
    simp [PhyPresent, Phy.addDevice]
  · intro x
    rw [i2.present, Phy.addDevice_present hn]
  · intro p u
    rw [i2.phyPresent]
    rfl

/-- A new controller: it is on every phy, and nothing else changes. -/
theorem newController_spec {cfg : Config} {k : Nat} {m m' : Phy.Model} (h : Phy.Inv k m) (hk : k + 1 < 2 ^ 32) (hs : newController cfg m = some m') :
    (∀ x p, DeviceLists m' x p ↔ DeviceLists m x p ∨ (x = m.nextDev ∧ ∃ t, PhyPresent m p t)) ∧
    (∀ x, Present m' x ↔ Present m x ∨ x = m.nextDev) ∧ (∀ p t, PhyPresent m' p t ↔ PhyPresent m p t) := by
  simp only [newController, Phy.run, Option.bind_eq_some_iff, Option.some.injEq] at hs
  obtain ⟨m1, h1, m2, h2, rfl⟩ := hs
  obtain ⟨c1, c2, c3, c4⟩ := construct_loose h1
  obtain ⟨a1, a2, a3⟩ := phys_addHci (Phy.inv_step h hk _ h1) c1 h2
  refine ⟨?_, ?_, ?_⟩
  · intro x p; rw [a1, c2]; simp only [c4]
  · intro x; rw [a2, c3]
  · intro p t; rw [a3, c4]

theorem newLinkDevice_spec {cfg : Config} {k : Nat} {t : PhyType} {m m' : Phy.Model} (h : Phy.Inv k m) (hk : k + 1 < 2 ^ 32)
    (hs : newLinkDevice cfg m t = some m') :
    (∀ x p, DeviceLists m' x p ↔ DeviceLists m x p ∨ (x = m.nextDev ∧ PhyPresent m p t)) ∧
    (∀ x, Present m' x ↔ Present m x ∨ x = m.nextDev) ∧ (∀ p u, PhyPresent m' p u ↔ PhyPresent m p u) := by
  simp only [newLinkDevice, Phy.run, Option.bind_eq_some_iff, Option.some.injEq] at hs
  obtain ⟨m1, h1, m2, h2, rfl⟩ := hs
  obtain ⟨c1, c2, c3, c4⟩ := construct_loose h1
  obtain ⟨a1, a2, a3⟩ := phys_addLink (Phy.inv_step h hk _ h1) c1 h2
  refine ⟨?_, ?_, ?_⟩
  · intro x p; rw [a1, c2]; simp only [c4]
  · intro x; rw [a2, c3]
  · intro p t; rw [a3, c4]

/-! ## The way of a client to its controller -/

/-- The client a task is about. -/
def Task.client : Task → Option Client
  | .hci c => some c
  | _ => none

def taskClients : Option Work → List Client
  | some (.task t) => t.client.toList
  | _ => []

def watcherClients : Option Work → List Client
  | some (.accept (.hci _) c) => [c]
  | _ => []

/-- All the clients that were accepted. -/
def accepted (outs : List Out) : List Client :=
  outs.filterMap fun
    | .accepted _ c => some c
    | _ => none

structure Inv (k : Nat) (s : Sys) (outs : List Out) : Prop where
  typed : Typed s
  phy : Phy.Inv (2 * k) s.model
  names : (accepted outs ++ s.waiting.map (·.2)).Nodup
  named : ∀ c ∈ accepted outs ++ s.waiting.map (·.2), c < s.clients
  order : admitted outs = (controllers outs).map (·.1) ++ taskClients s.task ++ s.tasks.filterMap Task.client ++ watcherClients s.watcher
  socks : s.socks.map (fun k => (k.client, k.dev)) = standins outs
  hci : (s.socks.filter (·.hci)).map (fun k => (k.client, k.dev)) = controllers outs
  used : ∀ k ∈ s.socks, Used k.dev s.model
  distinct : (s.socks.map (·.dev)).Nodup

theorem admitted_append (a b : List Out) : admitted (a ++ b) = admitted a ++ admitted b := List.filterMap_append
theorem controllers_append (a b : List Out) : controllers (a ++ b) = controllers a ++ controllers b := List.filterMap_append
theorem standins_append (a b : List Out) : standins (a ++ b) = standins a ++ standins b := List.filterMap_append
theorem testers_append (a b : List Out) : testers (a ++ b) = testers a ++ testers b := List.filterMap_append
theorem answers_append (a b : List Out) : answers (a ++ b) = answers a ++ answers b := List.filterMap_append
theorem accepted_append (a b : List Out) : accepted (a ++ b) = accepted a ++ accepted b := List.filterMap_append

theorem answer_none (s : Sys) (x : Option Client) : admitted (answer s x) = [] ∧ controllers (answer s x) = [] ∧ standins (answer s x) = [] ∧
    testers (answer s x) = [] ∧ accepted (answer s x) = [] := by
  unfold answer
  split <;> simp [admitted, controllers, standins, testers, accepted]

theorem free_fields (s : Sys) (t : Thread) : (free s t).tasks = s.tasks ∧ (free s t).waiting = s.waiting ∧ (free s t).clients = s.clients ∧
    (free s t).socks = s.socks ∧ (free s t).gone = s.gone ∧ (free s t).boot = s.boot := by cases t <;> exact ⟨rfl, rfl, rfl, rfl, rfl, rfl⟩

theorem names_step {cfg : Config} {s s' : Sys} {outs : List Out} {a : Act} {o : List Out} (hd : Did cfg s a s' o)
    (h1 : (accepted outs ++ s.waiting.map (·.2)).Nodup) (h2 : ∀ c ∈ accepted outs ++ s.waiting.map (·.2), c < s.clients) :
    (accepted (outs ++ o) ++ s'.waiting.map (·.2)).Nodup ∧ (∀ c ∈ accepted (outs ++ o) ++ s'.waiting.map (·.2), c < s'.clients) := by
  have keep : accepted o = [] → s'.waiting = s.waiting → s'.clients = s.clients →
      (accepted (outs ++ o) ++ s'.waiting.map (·.2)).Nodup ∧ (∀ c ∈ accepted (outs ++ o) ++ s'.waiting.map (·.2), c < s'.clients) := by
    intro e1 e2 e3
    rw [accepted_append, e1, e2, e3, List.append_nil]
    exact ⟨h1, h2⟩
  have keepF : ∀ t, accepted o = [] → s'.waiting = (free s t).waiting → s'.clients = (free s t).clients →
      (accepted (outs ++ o) ++ s'.waiting.map (·.2)).Nodup ∧ (∀ c ∈ accepted (outs ++ o) ++ s'.waiting.map (·.2), c < s'.clients) := by
    intro t e1 e2 e3
    exact keep e1 (e2.trans (free_fields s t).2.1) (e3.trans (free_fields s t).2.2.1)
  cases hd with
  | connect p =>
    simp only [List.append_nil, List.map_append, List.map_cons, List.map_nil, ← List.append_assoc]
    refine ⟨?_, ?_⟩
    · rw [List.nodup_append]
      refine ⟨h1, by simp, ?_⟩
      intro x hx y hy
      simp only [List.mem_singleton] at hy
      have := h2 x hx
      subst hy
      exact Nat.ne_of_lt this
    · intro c hc
      rcases List.mem_append.mp hc with hc | hc
      · exact Nat.lt_succ_of_lt (h2 c hc)
      · simp only [List.mem_singleton] at hc; subst hc; exact Nat.lt_succ_self _
  | accept p c hw0 hp hf hw =>
    have hm := List.mem_of_find?_eq_some hf
    have hperm : (accepted outs ++ s.waiting.map (·.2)).Perm (accepted (outs ++ [.accepted p c]) ++ (s.waiting.erase (p, c)).map (·.2)) := by
      rw [accepted_append]
      simp only [List.append_assoc]
      refine List.Perm.append_left _ ?_
      exact (List.perm_cons_erase hm).map (·.2)
    exact ⟨hperm.nodup_iff.mp h1, fun x hx => h2 x (hperm.mem_iff.mpr hx)⟩
  | leave | boot | read | shut | task | tick => exact keep rfl rfl rfl
  | booted t | commanded t => exact keepF t (answer_none s _).2.2.2.2 rfl rfl
  | listened t | sniffed t | controller t | closed t | already t | ended t | cleared t | admitted t | joined t | refused t | greeted t
  | ticked t => exact keepF t rfl rfl rfl

theorem fm_command (c : Client) (k : Cmd) : [Task.command c k].filterMap Task.client = [] := rfl
theorem fm_clear : [Task.clear].filterMap Task.client = [] := rfl
theorem fm_hci (c : Client) : [Task.hci c].filterMap Task.client = [c] := rfl
theorem fm_cons_closed (d : Nat) (l : List Task) : (Task.closed d :: l).filterMap Task.client = l.filterMap Task.client := rfl

theorem filterMap_closed (l : List Nat) : (l.map Task.closed).filterMap Task.client = [] := by
  induction l with
  | nil => rfl
  | cons a l ih => rw [List.map_cons, fm_cons_closed]; exact ih

theorem filterMap_drop (l : List Task) (d : Nat) : (l.filter (· ≠ .closed d)).filterMap Task.client = l.filterMap Task.client := by
  induction l with
  | nil => rfl
  | cons a l ih =>
    by_cases h : a = .closed d
    · subst h; rw [fm_cons_closed, List.filter_cons_of_neg (by simp)]; exact ih
    · rw [List.filter_cons_of_pos (by simpa using h)]
      simp only [List.filterMap_cons, ih]

theorem order_step {cfg : Config} {s s' : Sys} {outs : List Out} {a : Act} {o : List Out} (hd : Did cfg s a s' o) (hT : Typed s)
    (h : admitted outs = (controllers outs).map (·.1) ++ taskClients s.task ++ s.tasks.filterMap Task.client ++ watcherClients s.watcher) :
    admitted (outs ++ o) = (controllers (outs ++ o)).map (·.1) ++ taskClients s'.task ++ s'.tasks.filterMap Task.client ++ watcherClients s'.watcher := by
  rw [admitted_append, controllers_append]
  cases hd with
  | connect | leave | boot => simpa [admitted, controllers] using h
  | accept p c hw0 =>
    rw [hw0] at h
    cases p <;> simp_all [admitted, controllers, watcherClients]
  | read c k => simp only [List.filterMap_append, fm_command]; simpa [admitted, controllers] using h
  | shut => simpa [admitted, controllers] using h
  | task t ts ht0 ht =>
    rw [ht0, ht] at h
    cases hc : t.client <;> simp_all [admitted, controllers, taskClients]
  | tick l ht0 =>
    rw [ht0] at h
    simpa [admitted, controllers, taskClients] using h
  | listened t p h1 => obtain ⟨rfl, -⟩ := hT.boot h1; simpa [admitted, controllers, free] using h
  | booted t k m ts n b h1 h2 h3 =>
    obtain ⟨rfl, -⟩ := hT.boot h1
    rw [(answer_none s _).1, (answer_none s _).2.1]
    rcases h3 with rfl | ⟨-, rfl⟩ <;> simp only [List.filterMap_append, fm_clear] <;> simpa [free] using h
  | commanded t c k m ts n b h0 h1 h2 h3 =>
    obtain ⟨rfl, h4⟩ := hT.taskOf h1
    rw [h4] at h
    rw [(answer_none s _).1, (answer_none s _).2.1]
    rcases h3 with rfl | ⟨-, rfl⟩ <;> simp only [List.filterMap_append, fm_clear] <;> simpa [free, Task.client, taskClients] using h
  | sniffed t m h1 => obtain ⟨rfl, -⟩ := hT.boot h1; simpa [admitted, controllers, free] using h
  | controller t c m h1 =>
    obtain ⟨rfl, h4⟩ := hT.taskOf h1
    rw [h4] at h
    simpa [admitted, controllers, free, taskClients, Task.client] using h
  | closed t d h1 =>
    obtain ⟨rfl, h4⟩ := hT.taskOf h1
    rw [h4] at h
    rw [filterMap_drop]
    simpa [admitted, controllers, free, taskClients, Task.client] using h
  | already t d h1 =>
    obtain ⟨rfl, h4⟩ := hT.taskOf h1
    rw [h4] at h
    simpa [admitted, controllers, free, taskClients, Task.client] using h
  | ended t c h1 =>
    obtain ⟨rfl, h4⟩ := hT.taskOf h1
    rw [h4] at h
    simpa [admitted, controllers, free, taskClients, Task.client] using h
  | cleared t m h1 =>
    obtain ⟨rfl, h4⟩ := hT.taskOf h1
    rw [h4] at h
    simpa [admitted, controllers, free, taskClients, Task.client] using h
  | admitted t i c h1 =>
    obtain ⟨rfl, h4⟩ := hT.accept h1
    rw [h4] at h
    simpa [admitted, controllers, free, watcherClients, Task.client] using h
  | joined t p c u m h1 h2 =>
    obtain ⟨rfl, h4⟩ := hT.accept h1
    rw [h4] at h
    rcases h2 with ⟨rfl, -⟩ | ⟨rfl, -⟩ <;> simpa [admitted, controllers, free, watcherClients, Task.client] using h
  | refused t c h1 =>
    obtain ⟨rfl, h4⟩ := hT.accept h1
    rw [h4] at h
    simpa [admitted, controllers, free, watcherClients, Task.client] using h
  | greeted t c h1 =>
    obtain ⟨rfl, h4⟩ := hT.accept h1
    rw [h4] at h
    simpa [admitted, controllers, free, watcherClients, Task.client] using h
  | ticked t l h1 =>
    obtain ⟨rfl, h4⟩ := hT.tickOf h1
    rw [h4] at h
    simp only [List.filterMap_append, filterMap_closed]
    simpa [admitted, controllers, free, taskClients, Task.client] using h

theorem inv_step {cfg : Config} {k : Nat} {s s' : Sys} {outs : List Out} {a : Act} {o : List Out} (hk : k + 1 < 2 ^ 30)
    (h : Inv k s outs) (hd : Did cfg s a s' o) : Inv (k + 1) s' (outs ++ o) := by
  have hphy := phy_step hk h.phy hd
  obtain ⟨n1, n2⟩ := names_step hd h.names h.named
  have hused : ∀ x ∈ s.socks, Used x.dev s'.model := fun x hx => used_step hk h.phy (h.used x hx) hd
  have base : s'.socks = s.socks → standins o = [] → controllers o = [] → Inv (k + 1) s' (outs ++ o) := by
    intro e1 e2 e3
    refine ⟨typed_step h.typed hd, hphy, n1, n2, order_step hd h.typed h.order, ?_, ?_, ?_, ?_⟩
    · rw [standins_append, e1, e2, List.append_nil]; exact h.socks
    · rw [controllers_append, e1, e3, List.append_nil]; exact h.hci
    · rw [e1]; exact hused
    · rw [e1]; exact h.distinct
  have baseF : ∀ t, s'.socks = (free s t).socks → standins o = [] → controllers o = [] → Inv (k + 1) s' (outs ++ o) :=
    fun t e1 => base (e1.trans (free_fields s t).2.2.2.1)
  have new : ∀ c b, s'.socks = s.socks ++ [⟨s.model.nextDev, c, b⟩] → Present s'.model s.model.nextDev →
      standins o = [(c, s.model.nextDev)] → controllers o = (if b then [(c, s.model.nextDev)] else []) → Inv (k + 1) s' (outs ++ o) := by
    intro c b e1 e2 e3 e4
    refine ⟨typed_step h.typed hd, hphy, n1, n2, order_step hd h.typed h.order, ?_, ?_, ?_, ?_⟩
    · rw [standins_append, e1, e3, List.map_append, h.socks]; rfl
    · rw [controllers_append, e1, e4, List.filter_append, List.map_append, h.hci]
      cases b <;> rfl
    · intro x hx
      rw [e1] at hx
      rcases List.mem_append.mp hx with hx | hx
      · exact hused x hx
      · simp only [List.mem_singleton] at hx; subst hx; exact used_of_present hphy e2
    · rw [e1, List.map_append, List.nodup_append]
      refine ⟨h.distinct, by simp, ?_⟩
      intro x hx y hy
      simp only [List.map_cons, List.map_nil, List.mem_singleton] at hy
      obtain ⟨z, hz, rfl⟩ := List.mem_map.mp hx
      have := (h.used z hz).1
      omega
  cases hd with
  | connect | leave | boot | accept | read | shut | task | tick => exact base rfl rfl rfl
  | listened t | sniffed t | closed t | already t | ended t | cleared t | admitted t | refused t | greeted t | ticked t => exact baseF t rfl rfl rfl
  | booted t | commanded t => exact baseF t rfl (answer_none s _).2.2.1 (answer_none s _).2.1
  | controller t c m h1 h2 =>
    exact new c true rfl (((newController_spec h.phy (by omega) h2).2.1 _).mpr (.inr rfl)) rfl rfl
  | joined t p c u m h1 h2 h3 =>
    exact new c false rfl (((newLinkDevice_spec h.phy (by omega) h3).2.1 _).mpr (.inr rfl)) rfl rfl

theorem inv_init (n : Nat) (b : Bool) : Inv 0 (Sys.init n b) [] :=
  ⟨typed_init n b, Phy.inv_init, by simp [accepted, Sys.init], by simp [accepted, Sys.init], rfl, rfl, rfl, by simp [Sys.init], by simp [Sys.init]⟩

theorem inv_of {cfg : Config} {n : Nat} {b : Bool} {acts : List Act} {s : Sys} {outs : List Out} (h : Gets cfg n b acts s outs) :
    Inv acts.length s outs := by
  have := invariant (Q := fun _ => True) (P := Inv) (fun k s outs a s' o hk _ hi hs => inv_step hk hi (did hs)) acts 0 _ [] s outs
    (by have := h.1; omega) (fun _ _ => trivial) (inv_init n b) h.2
  simpa using this

end Verif.Env
