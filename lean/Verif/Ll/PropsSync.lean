import Verif.Ll.SyncLemmas
import Verif.Ll.SpecSync
import Mathlib.Data.List.Induction
/-!
# C39: periodic synchronization handles are unique and match what was asked for
-/

namespace Verif.Ll
open Verif.Le

theorem run_snoc {ah : Hash} {cfg : Config} {ops : List Op} {o : Op} : ∀ {s0 : State}
    {y : State × List Obs}, run ah cfg (ops ++ [o]) s0 = .ok y →
    ∃ s obs x, run ah cfg ops s0 = .ok (s, obs) ∧ step ah cfg s o = .ok x ∧
      y = (x.1, obs ++ [x.2]) := by
  induction ops with
  | nil =>
    intro s0 y h
    simp only [List.nil_append, run] at h
    obtain ⟨x, hx, h⟩ := Res.bind_eq_ok h
    cases h
    exact ⟨s0, [], x, rfl, hx, rfl⟩
  | cons a ops ih =>
    intro s0 y h
    simp only [List.cons_append, run] at h
    obtain ⟨x, hx, h⟩ := Res.bind_eq_ok h
    obtain ⟨z, hz, h⟩ := Res.bind_eq_ok h
    cases h
    obtain ⟨s, obs, w, h1, h2, rfl⟩ := ih hz
    exact ⟨s, x.2 :: obs, w, by simp [run, hx, h1], h2, rfl⟩

/-- Induction over histories. -/
theorem run_history {ah : Hash} {cfg : Config} {P : List Op → State → Prop} {s0 : State}
    (h0 : P [] s0)
    (hstep : ∀ ops s o x, P ops s → step ah cfg s o = .ok x → P (ops ++ [o]) x.1)
    (ops : List Op) : ∀ {y : State × List Obs}, run ah cfg ops s0 = .ok y → P ops y.1 := by
  induction ops using List.reverseRecOn with
  | nil => intro y h; cases h; exact h0
  | append_singleton ops o ih =>
    intro y h
    obtain ⟨s, obs, x, h1, h2, rfl⟩ := run_snoc h
    exact hstep ops s o x (ih h1) h2

/-- Every entry of the periodic advertiser list was there before or is being added. -/
theorem step_pal {ah : Hash} {cfg : Config} {s : State} {o : Op} {x : State × Obs}
    (h : step ah cfg s o = .ok x) {e : PalEntry} (he : e ∈ x.1.le.periodicAdvertiserList) :
    e ∈ s.le.periodicAdvertiserList ∨ o = .cmd (.addPeriodicAdvertiser e) := by
  cases o with
  | cmd c =>
    simp only [step] at h
    obtain ⟨y, hy, h⟩ := Res.bind_eq_ok h
    cases h
    have hr : ∃ e, runCmd cfg s.le c = .ret y.1.le e := by
      simp only [command] at hy
      split at hy
      · cases hy
      · rename_i le e hr
        split at hy <;> (cases hy; exact ⟨e, hr⟩)
    obtain ⟨st, hr⟩ := hr
    by_cases hw : c.isPeriodicList = false
    · have := runCmd_periodicList hw hr
      simp only [this] at he
      exact .inl he
    · cases c
      case addPeriodicAdvertiser e' =>
        obtain ⟨hq, -⟩ := runCmd_ret_of hr
        simp only [addPeriodicAdvertiser, checked, checkedThen] at hq
        split at hq
        · simp only [hq, List.mem_append, List.mem_singleton] at he
          rcases he with he | rfl
          · exact .inl he
          · exact .inr rfl
        · simp only [hq] at he; exact .inl he
      case removePeriodicAdvertiser e' =>
        obtain ⟨hq, -⟩ := runCmd_ret_of hr
        simp only [removePeriodicAdvertiser, checked, checkedThen] at hq
        split at hq
        · simp only [hq] at he; exact .inl (List.mem_of_mem_eraseP he)
        · simp only [hq] at he; exact .inl he
      case clearPeriodicAdvertiser =>
        obtain ⟨hq, -⟩ := runCmd_ret_of hr
        simp only [clearPeriodicAdvertiser, checked, checkedThen] at hq
        split at hq
        · simp only [hq] at he; cases he
        · simp only [hq] at he; exact .inl he
      all_goals exact absurd rfl hw
  | receive rnd now p =>
    simp only [step] at h
    obtain ⟨y, hy, h⟩ := Res.bind_eq_ok h
    cases h
    left
    by_cases hp : ∃ q, p = .periodic q
    · obtain ⟨q, rfl⟩ := hp
      obtain ⟨r, hr⟩ := resolveUpdate_frame ah s.le q.adv
      simp only [receive, periodicPdu] at hy
      simp only [hr] at hy
      repeat' split at hy
      all_goals first | (cases hy; exact he) | cases hy
    · obtain ⟨_, _, _, _, hf⟩ := receive_frame (fun q hq => hp ⟨q, hq⟩) hy
      simp only [hf] at he
      exact he
  | tick now =>
    simp only [step] at h
    obtain ⟨y, hy, h⟩ := Res.bind_eq_ok h
    cases h
    simp only [tick] at hy
    split at hy
    · cases hy
    · rename_i le out ha
      cases hy
      have hr : runEnv s.le (.tick now) = .ret (scanning now le).1 out := by simp only [runEnv, ha]
      obtain ⟨m, -, hm, -⟩ := runEnv_tick hr
      simp only [hm] at he
      exact .inl he
  | sendAcl a b c d =>
    simp only [step, handleAcl] at h
    obtain ⟨y, hy, h⟩ := Res.bind_eq_ok h
    cases h
    split at hy
    · cases hy
    split at hy <;> (cases hy; exact .inl he)
  | disconnect a b c =>
    simp only [step, disconnect] at h
    obtain ⟨y, hy, h⟩ := Res.bind_eq_ok h
    cases h
    split at hy
    · cases hy; exact .inl he
    split at hy
    · cases hy
    · rename_i hr
      cases hy
      simp only [removeConnection] at hr
      split at hr
      · cases hr; exact .inl he
      · cases hr
  | reset => cases h; cases he

theorem mapSet_absent {κ α : Type} [DecidableEq κ] {m : List (κ × α)} {k : κ}
    (h : mapFind m k = none) (a : α) : mapSet m k a = m ++ [(k, a)] := by
  induction m with
  | nil => rfl
  | cons e m ih =>
    obtain ⟨k', a'⟩ := e
    have hk : ¬ k' = k := by
      rintro rfl
      simp [mapFind] at h
    simp only [mapSet, if_neg hk, List.cons_append]
    rw [ih]
    simpa [mapFind, hk] using h

/-- Every synchronization has its own handle, at every point of every history. -/
theorem C39_handles_unique {ah : Hash} {cfg : Config} {s : State} (h : Reachable ah cfg s) :
    (s.le.synchronized.map (·.1)).Nodup ∧ ∀ k ∈ s.le.synchronized.map (·.1), k < 65536 :=
  syncKeys_nodup h

/-- Sync Established is reported with a free handle, the SID of the PDU and the
identity of the advertiser, which is the one the pending command asks for; the
attempt is no longer pending, and the handle stands for that advertiser. -/
theorem C39_established {ah : Hash} {cfg : Config} {rnd : Irk → Address} {now : Nat} {s s' : State}
    {p : PeriodicPdu} {o : Obs} (h : step ah cfg s (.receive rnd now (.periodic p)) = .ok (s', o))
    {k sid i : Nat} {a : AddressWithType} (he : .syncEstablished k sid a i ∈ o.out) :
    sid = p.sid ∧ i = p.interval ∧ Identity ah s.le p.adv a ∧
    mapFind s.le.synchronized k = none ∧ k < 65536 ∧
    (∃ y, s.le.synchronizing = some y ∧
      (if y.options.useList then ⟨a.toPeerType, a.address, p.sid⟩ ∈ s.le.periodicAdvertiserList
       else y.advertiser = ⟨a.toPeerType, a.address, p.sid⟩)) ∧
    s'.le.synchronizing = none ∧
    (∃ z, s'.le.synchronized = s.le.synchronized ++ [(k, z)] ∧
      z.advertiser = ⟨a.toPeerType, a.address, p.sid⟩) := by
  obtain ⟨r, hr⟩ := resolveUpdate_frame ah s.le p.adv
  simp only [step, receive, periodicPdu] at h
  obtain ⟨x, hx, h⟩ := Res.bind_eq_ok h
  cases h
  split at hx
  · cases hx; cases he
  split at hx
  · cases hx; cases he
  split at hx
  · rename_i hm
    split at hx
    · cases hx; cases he
    · rename_i y hy
      split at hx
      · cases hx
      · rename_i hlt
        cases hx
        rw [resolveUpdate_matches] at hm
        have hsy : (resolveUpdate ah s.le p.adv).synchronized = s.le.synchronized := by rw [hr]
        have hy' : s.le.synchronizing = some y := by rw [hr] at hy; exact hy
        simp only [List.mem_singleton, Out.syncEstablished.injEq, hsy] at he hlt ⊢
        obtain ⟨rfl, rfl, rfl, rfl⟩ := he
        have hfree := (freeSyncHandle_spec s.le.synchronized).1
        refine ⟨rfl, rfl, (identity_iff ah s.le p.adv _).mp rfl, hfree, by omega, ⟨y, hy', ?_⟩,
          trivial, ⟨_, mapSet_absent hfree _, rfl⟩⟩
        simp only [matchesSynchronizing, hy'] at hm
        split at hm
        · rename_i hu; rw [if_pos hu]; simpa using hm
        · rename_i hu; rw [if_neg hu]; simpa using hm
  · cases hx
    simp only [List.mem_flatMap, List.mem_map] at he
    obtain ⟨_, -, _, -, hc⟩ := he
    cases hc

/-- Every synchronization was asked for by the host. -/
theorem C39_asked {ah : Hash} {cfg : Config} {a : Option Address} {ops : List Op} {s : State}
    {obs : List Obs} (h : run ah cfg ops (initial a) = .ok (s, obs)) :
    ∀ e ∈ s.le.synchronized, Asked ops e.2.advertiser := by
  have key := run_history (P := fun ops s =>
      (∀ e ∈ s.le.synchronized, Asked ops e.2.advertiser) ∧
      (∀ y, s.le.synchronizing = some y → ∃ t ct, Op.cmd (.createSync y.options y.advertiser t ct) ∈ ops) ∧
      (∀ e ∈ s.le.periodicAdvertiserList, Op.cmd (.addPeriodicAdvertiser e) ∈ ops))
    (ah := ah) (cfg := cfg) (s0 := initial a)
    ⟨(fun e he => by cases he), (fun y hy => by cases hy), (fun e he => by cases he)⟩ ?_ ops h
  · exact key.1
  intro ops s o x ⟨h1, h2, h3⟩ hx
  have hA : ∀ e, Asked ops e → Asked (ops ++ [o]) e := by
    rintro e (⟨opt, t, ct, hm, hu⟩ | ⟨⟨opt, oth, t, ct, hm, hu⟩, hp⟩)
    · exact .inl ⟨opt, t, ct, List.mem_append_left _ hm, hu⟩
    · exact .inr ⟨⟨opt, oth, t, ct, List.mem_append_left _ hm, hu⟩, List.mem_append_left _ hp⟩
  refine ⟨?_, ?_, ?_⟩
  · intro e he
    cases step_sync hx with
    | same g1 => rw [g1] at he; exact hA _ (h1 e he)
    | create g1 => rw [g1] at he; exact hA _ (h1 e he)
    | cancel g1 => rw [g1] at he; exact hA _ (h1 e he)
    | terminate g1 =>
      rw [g1] at he
      exact hA _ (h1 e (List.mem_of_mem_filter he))
    | establish g1 g2 g3 g4 g5 g6 =>
      rw [g5, mapSet_absent g3] at he
      rcases List.mem_append.mp he with he | he
      · exact hA _ (h1 e he)
      · simp only [List.mem_singleton] at he
        subst he
        apply hA
        rename_i y k e'
        obtain ⟨t, ct, hm⟩ := h2 y g1
        simp only [matchesSynchronizing, g1] at g6
        split at g6
        · rename_i hu
          exact .inr ⟨⟨y.options, y.advertiser, t, ct, hm, hu⟩, h3 _ (by simpa using g6)⟩
        · rename_i hu
          have : y.advertiser = e' := by simpa using g6
          exact .inl ⟨y.options, t, ct, this ▸ hm, by simpa using hu⟩
    | reset g1 => rw [g1] at he; cases he
  · intro y hy
    cases step_sync hx with
    | same g1 g2 =>
      rw [g2] at hy
      obtain ⟨t, ct, hm⟩ := h2 y hy
      exact ⟨t, ct, List.mem_append_left _ hm⟩
    | create g1 g2 g3 =>
      rw [g3] at hy
      cases hy
      exact ⟨_, _, List.mem_append_right _ (List.mem_singleton.mpr rfl)⟩
    | cancel g1 g2 => rw [g2] at hy; cases hy
    | terminate g1 g2 =>
      rw [g2] at hy
      obtain ⟨t, ct, hm⟩ := h2 y hy
      exact ⟨t, ct, List.mem_append_left _ hm⟩
    | establish g1 g2 => rw [g2] at hy; cases hy
    | reset g1 g2 => rw [g2] at hy; cases hy
  · intro e he
    rcases step_pal hx he with he | rfl
    · exact List.mem_append_left _ (h3 e he)
    · exact List.mem_append_right _ (List.mem_singleton.mpr rfl)

/-- **Partial.** As long as the host never synchronizes by the periodic advertiser
list, there is at most one synchronization per advertiser and SID. Missing: the
list, see `C39_duplicate_violated`. -/
theorem C39_one_per_advertiser_partial {ah : Hash} {cfg : Config} {a : Option Address}
    {ops : List Op} {s : State} {obs : List Obs} (hops : ∀ o ∈ ops, ¬ UsesList o)
    (h : run ah cfg ops (initial a) = .ok (s, obs)) :
    (s.le.synchronized.map (·.2.advertiser)).Nodup := by
  have key := run_history (P := fun ops s => (∀ o ∈ ops, ¬ UsesList o) →
      (s.le.synchronized.map (·.2.advertiser)).Nodup ∧
      (∀ y, s.le.synchronizing = some y → y.options.useList = false ∧
        ∀ e ∈ s.le.synchronized, e.2.advertiser ≠ y.advertiser))
    (ah := ah) (cfg := cfg) (s0 := initial a)
    (fun _ => ⟨List.nodup_nil, fun y hy => by cases hy⟩) ?_ ops h
  · exact (key hops).1
  intro ops s o x ih hx hu
  obtain ⟨h1, h2⟩ := ih (fun o ho => hu o (List.mem_append_left _ ho))
  have ho := hu o (List.mem_append_right _ (List.mem_singleton.mpr rfl))
  cases step_sync hx with
  | same g1 g2 => rw [g1, g2]; exact ⟨h1, h2⟩
  | create g1 g2 g3 g4 =>
    rw [g1, g3]
    refine ⟨h1, fun y hy => ?_⟩
    cases hy
    have hf : ∀ b : Bool, ¬ (b = true) → b = false := by decide
    exact ⟨hf _ ho, g4 (hf _ ho)⟩
  | cancel g1 g2 => rw [g1, g2]; exact ⟨h1, fun y hy => by cases hy⟩
  | terminate g1 g2 =>
    rw [g1, g2]
    refine ⟨h1.sublist ((List.filter_sublist).map _), fun y hy => ?_⟩
    obtain ⟨i1, i2⟩ := h2 y hy
    exact ⟨i1, fun e he => i2 e (List.mem_of_mem_filter he)⟩
  | establish g1 g2 g3 g4 g5 g6 =>
    rename_i y k e'
    obtain ⟨i1, i2⟩ := h2 y g1
    rw [g5, g2, mapSet_absent g3]
    refine ⟨?_, fun y hy => by cases hy⟩
    have : y.advertiser = e' := by simpa [matchesSynchronizing, g1, i1] using g6
    simp only [List.map_append, List.map_cons, List.map_nil]
    rw [List.nodup_append]
    refine ⟨h1, by simp, ?_⟩
    intro b hb c hc hbc
    simp only [List.mem_singleton] at hc
    obtain ⟨z, hz, rfl⟩ := List.mem_map.mp hb
    exact i2 z hz (by rw [this, hbc, hc])
  | reset g1 g2 => rw [g1, g2]; exact ⟨List.nodup_nil, fun y hy => by cases hy⟩

/-! ### The counterexamples -/

/-- An advertiser, and one of its PDUs. -/
def somePal : PalEntry := ⟨.pub, 5, 3⟩
def somePeriodic : PeriodicPdu := ⟨⟨5, .publicDevice⟩, 3, 8, [1, 2, 3]⟩

/-- Synchronize with the list, once more. -/
def syncOnce : List Op :=
  [.cmd (.createSync { useList := true } somePal 1000 0), .receive (fun _ => 0) 0 (.periodic somePeriodic)]

/-- Start scanning and fill the list. -/
def syncSetup : List Op :=
  [.cmd (.addPeriodicAdvertiser somePal), .cmd (.setExtendedScanEnable 0 true .disabled 0 0)]

/-- **Counterexample.** Two synchronizations by the list give two handles for the
same advertiser and SID. -/
theorem C39_duplicate_violated :
    ∃ s obs, run (fun _ _ => 0) Config.default (syncSetup ++ syncOnce ++ syncOnce) (initial none) =
        .ok (s, obs) ∧
      ¬ (s.le.synchronized.map (·.2.advertiser)).Nodup ∧ s.le.synchronized.map (·.1) = [0, 1] := by
  refine ⟨_, _, rfl, ?_, ?_⟩ <;> decide +kernel

/-- The state after `n` synchronizations. -/
def syncState (n : Nat) : State :=
  { le := { extendedInUse := true, periodicAdvertiserList := [somePal], scanner := { enable := true }, synchronized := (List.range n).map (fun k => (k, ⟨somePal, 10000000, 10000000⟩)) } }

theorem mapFind_range (n k : Nat) (z : Synchronized) :
    mapFind ((List.range n).map (fun k => (k, z))) k = if k < n then some z else none := by
  by_cases hk : k < n
  · rw [if_pos hk]
    refine mapFind_mem ?_ (List.mem_map.mpr ⟨k, List.mem_range.mpr hk, rfl⟩)
    simp only [List.map_map, Function.comp_def, List.map_id']
    exact List.nodup_range
  · rw [if_neg hk, Le.mapFind_none]
    simp [hk]

theorem free_range (n : Nat) (z : Synchronized) :
    freeSyncHandle ((List.range n).map (fun k => (k, z)))
      (((List.range n).map (fun k => (k, z))).length + 1) 0 = n := by
  obtain ⟨h1, h2⟩ := freeSyncHandle_spec ((List.range n).map (fun k => (k, z)))
  generalize freeSyncHandle _ _ 0 = f at h1 h2
  rw [mapFind_range] at h1
  split at h1
  · cases h1
  · rename_i hn
    by_cases hlt : n < f
    · have := h2 n hlt
      rw [mapFind_range, if_neg (by omega)] at this
      cases this
    · omega

/-- The state between the command and the PDU. -/
def syncPending (n : Nat) : State :=
  { syncState n with le := { (syncState n).le with synchronizing := some ⟨{ useList := true }, somePal, 10000000⟩ } }

theorem sync_create (n : Nat) :
    step (fun _ _ => 0) Config.default (syncState n)
      (.cmd (.createSync { useList := true } somePal 1000 0)) =
    .ok (syncPending n, ⟨some .success, []⟩) := rfl

theorem sync_receive (n : Nat) :
    step (fun _ _ => 0) Config.default (syncPending n) (.receive (fun _ => 0) 0 (.periodic somePeriodic)) =
      if n ≥ 65536 then .hang
      else .ok (syncState (n + 1), ⟨none, [.syncEstablished n 3 ⟨5, .publicDevice⟩ 8]⟩) := by
  have hr : resolveUpdate (fun _ _ => 0) (syncPending n).le somePeriodic.adv = (syncPending n).le := rfl
  have hi : resolved (fun _ _ => 0) (syncPending n).le somePeriodic.adv = ⟨5, .publicDevice⟩ := rfl
  have hm : matchesSynchronizing (syncPending n).le ⟨.pub, 5, 3⟩ = true := rfl
  have hy : (syncPending n).le.synchronizing = some ⟨{ useList := true }, somePal, 10000000⟩ := rfl
  have hsy : (syncPending n).le.synchronized =
    (List.range n).map (fun k => (k, (⟨somePal, 10000000, 10000000⟩ : Synchronized))) := rfl
  have hf := free_range n ⟨somePal, 10000000, 10000000⟩
  have hset : mapSet ((List.range n).map (fun k => (k, (⟨somePal, 10000000, 10000000⟩ : Synchronized)))) n
      ⟨⟨.pub, 5, 3⟩, 10000000, 0 + 10000000⟩ =
      (List.range (n + 1)).map (fun k => (k, ⟨somePal, 10000000, 10000000⟩)) := by
    rw [mapSet_absent (by rw [mapFind_range, if_neg (by omega)]), List.range_succ, List.map_append]
    rfl
  have he1 : (syncPending n).le.scanner.enable = true := rfl
  have he2 : (syncPending n).le.extendedInUse = true := rfl
  simp only [step, receive, periodicPdu, hr, hi, he1, he2, Bool.true_eq_false, if_false]
  have hm' : matchesSynchronizing (syncPending n).le
    ⟨AddressWithType.toPeerType ⟨5, .publicDevice⟩, 5, somePeriodic.sid⟩ = true := hm
  rw [if_pos hm']
  simp only [hy, hsy, hf]
  by_cases hn : n ≥ 65536
  · rw [if_pos hn, if_pos hn]; rfl
  · rw [if_neg hn, if_neg hn]
    have : (mapSet ((List.range n).map (fun k => (k, (⟨somePal, 10000000, 10000000⟩ : Synchronized)))) n
      ⟨⟨AddressWithType.toPeerType ⟨5, .publicDevice⟩, 5, somePeriodic.sid⟩, 10000000, 0 + 10000000⟩) =
      (List.range (n + 1)).map (fun k => (k, ⟨somePal, 10000000, 10000000⟩)) := hset
    simp only [Res.bind_ok]
    rw [this]
    rfl

theorem syncState_reachable (n : Nat) (hn : n ≤ 65536) :
    Reachable (fun _ _ => 0) Config.default (syncState n) := by
  induction n with
  | zero => exact ⟨none, syncSetup, _, rfl⟩
  | succ n ih =>
    have h1 := (ih (by omega)).step (sync_create n)
    have h2 := sync_receive n
    rw [if_neg (by omega)] at h2
    exact h1.step h2

/-- **Counterexample.** When all 65536 handles are taken, the next synchronization
does not end: the search for a free handle goes on forever. -/
theorem C39_handles_exhausted_violated :
    ∃ s, Reachable (fun _ _ => 0) Config.default s ∧
      step (fun _ _ => 0) Config.default s (.receive (fun _ => 0) 0 (.periodic somePeriodic)) = .hang := by
  refine ⟨syncPending 65536, (syncState_reachable 65536 (Nat.le_refl _)).step (sync_create 65536), ?_⟩
  rw [sync_receive, if_pos (Nat.le_refl _)]

/-! ### The statements are about something -/

set_option maxRecDepth 8000 in
/-- A synchronization by name. -/
example : ∃ s obs, run (fun _ _ => 0) Config.default
    [.cmd (.setExtendedScanEnable 0 true .disabled 0 0), .cmd (.createSync {} somePal 1000 0),
     .receive (fun _ => 0) 0 (.periodic somePeriodic), .receive (fun _ => 0) 0 (.periodic somePeriodic)] (initial none) =
      .ok (s, obs) ∧ obs.map (·.out) = [[], [], [.syncEstablished 0 3 ⟨5, .publicDevice⟩ 8],
        [.periodicReport 0 true [1, 2, 3]]] := ⟨_, _, rfl, rfl⟩

end Verif.Ll
