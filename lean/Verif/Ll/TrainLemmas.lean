import Verif.Ll.SpecTrain
import Verif.Ll.PropsSync
import Verif.Ll.PropsReport
import Verif.Ll.AskRead
/-!
# Periodic advertising as the host asked: the notes are kept (C110)
-/

namespace Verif.Ll
open Verif.Le

structure TiedTrains (s : Le.State) (m : Trains) : Prop where
  want : s.synchronizing.map (fun y => (y.options.useList, y.advertiser)) = m.want
  list : s.periodicAdvertiserList = m.list
  nodup : m.list.Nodup
  synced : s.synchronized.map (fun e => (e.1, e.2.advertiser)) = m.synced

theorem TiedTrains.keep {s t : Le.State} {m : Trains} (h : TiedTrains s m) (h1 : t.synchronizing = s.synchronizing)
    (h2 : t.periodicAdvertiserList = s.periodicAdvertiserList) (h3 : t.synchronized = s.synchronized) : TiedTrains t m :=
  ⟨by rw [h1]; exact h.1, by rw [h2]; exact h.2, h.3, by rw [h3]; exact h.4⟩

theorem kindOf_toPeerType (r : AddressWithType) : kindOf r = r.toPeerType := by
  obtain ⟨a, t⟩ := r
  cases t <;> rfl

theorem trains_cmd {cfg : Config} {s s' : Le.State} {c : Cmd} {e : Status} {m : Trains} (hT : TiedTrains s m)
    (h : runCmd cfg s c = .ret s' e) : TiedTrains s' (if e = .success then m.accepted c else m) := by
  by_cases hw : writesSync c = false
  · obtain ⟨h1, h2⟩ := runCmd_sync hw h
    by_cases hl : c.isPeriodicList = false
    · have h3 := runCmd_periodicList hl h
      have hm : (if e = .success then m.accepted c else m) = m := by
        split
        · cases c <;> first | rfl | (cases hw; done) | (cases hl; done)
        · rfl
      rw [hm]
      exact hT.keep h2 h3 h1
    · cases c
      all_goals first | (exact absurd rfl hl) | skip
      all_goals
        obtain ⟨rfl, rfl⟩ := runCmd_ret_of h
      case addPeriodicAdvertiser e' =>
        refine checked_note (P := TiedTrains) (fun hf => ?_) hT
        rw [firstError_iff (by simp)] at hf
        have hk := hf (s.periodicAdvertiserList.any (fun e => e == e'), .invalidHciCommandParameters) (by simp)
        refine ⟨hT.1, by show _ ++ _ = _ ++ _; rw [hT.2], ?_, hT.4⟩
        show (m.list ++ [e']).Nodup
        rw [← hT.2]
        have hn := hT.3
        rw [← hT.2] at hn
        rw [List.nodup_append]
        refine ⟨hn, by simp, ?_⟩
        intro a ha b hb hab
        simp only [List.mem_singleton] at hb
        subst hb; subst hab
        simp at hk
        exact hk _ ha rfl
      case removePeriodicAdvertiser e' =>
        refine checked_note (P := TiedTrains) (fun hf => ?_) hT
        have hn := hT.3
        refine ⟨hT.1, ?_, hn.sublist List.filter_sublist, hT.4⟩
        show s.periodicAdvertiserList.eraseP (fun e => e == e') = m.list.filter fun e => e ≠ e'
        rw [hT.2]
        rw [show m.list.eraseP (fun e => e == e') = m.list.erase e' by rw [List.erase_eq_eraseP]; congr 1; funext x; exact Bool.eq_iff_iff.2 ⟨fun h => by simpa using (by simpa using h : x = e').symm, fun h => by simpa using (by simpa using h : e' = x).symm⟩]
        rw [hn.erase_eq_filter]
        congr 1; funext x; by_cases hx : x = e' <;> simp [hx]
      case clearPeriodicAdvertiser =>
        exact checked_note (P := TiedTrains) (fun _ => ⟨hT.1, rfl, List.nodup_nil, hT.4⟩) hT
  · cases c
    all_goals first | (exact absurd rfl hw) | skip
    all_goals
      obtain ⟨rfl, rfl⟩ := runCmd_ret_of h
    case createSync o adv t ct =>
      exact checked_note (P := TiedTrains) (fun _ => ⟨rfl, hT.2, hT.3, hT.4⟩) hT
    case createSyncCancel =>
      exact checked_note (P := TiedTrains) (fun _ => ⟨rfl, hT.2, hT.3, hT.4⟩) hT
    case terminateSync k =>
      refine checked_note (P := TiedTrains) (fun _ => ⟨hT.1, hT.2, hT.3, ?_⟩) hT
      show (s.synchronized.filter _).map _ = m.synced.filter _
      rw [← hT.4, List.filter_map]
      rfl

theorem trains_step {ah : Hash} {cfg : Config} {s : State} {o : Op} {x : State × Obs} {m : Trains}
    (hT : TiedTrains s.le m) (h : step ah cfg s o = .ok x) : TiedTrains x.1.le (m.note o x.2) := by
  cases o with
  | cmd c =>
    simp only [step] at h
    obtain ⟨y, hy, h⟩ := Res.bind_eq_ok h
    cases h
    obtain ⟨le, hr, hx⟩ := command_cases hy
    have hle : y.1.le = le := by rw [hx]; split <;> rfl
    have hn : m.note (.cmd c) ⟨some y.2, []⟩ = if y.2 = .success then m.accepted c else m := by
      simp only [Trains.note, Option.some.injEq]
    rw [hn, hle]
    exact trains_cmd hT hr
  | receive rnd now p =>
    by_cases hp : ∃ q, p = .periodic q
    · obtain ⟨q, rfl⟩ := hp
      obtain ⟨r, hr⟩ := resolveUpdate_frame ah s.le q.adv
      simp only [step] at h
      obtain ⟨y, hy, h⟩ := Res.bind_eq_ok h
      cases h
      simp only [receive, periodicPdu] at hy
      split at hy
      · cases hy; exact hT
      split at hy
      · cases hy; exact hT
      split at hy
      · split at hy
        · cases hy; rw [hr]; exact hT.keep rfl rfl rfl
        · split at hy
          · cases hy
          · cases hy
            have hsy : (resolveUpdate ah s.le q.adv).synchronized = s.le.synchronized := by rw [hr]
            have hpl : (resolveUpdate ah s.le q.adv).periodicAdvertiserList = s.le.periodicAdvertiserList := by rw [hr]
            refine ⟨rfl, hpl.trans hT.2, hT.3, ?_⟩
            have hfree := (freeSyncHandle_spec s.le.synchronized).1
            simp only [hsy, mapSet_absent hfree, List.map_append, hT.4]
            show _ = m.synced ++ _
            rw [kindOf_toPeerType]
            rfl
      · cases hy
        have hm : ∀ (l : List (Nat × Synchronized)) (m : Trains), (l.flatMap (fun x =>
            (fragments maxPeriodicFragment q.data).map (fun f => Out.periodicReport x.1 f.1 f.2))).foldl Trains.event m = m := by
          intro l
          have hin : ∀ (k : Nat) (fs : List (Bool × List UInt8)) (m : Trains), (fs.map (fun f => Out.periodicReport k f.1 f.2)).foldl Trains.event m = m := by
            intro k fs
            induction fs with
            | nil => intro m; rfl
            | cons f fs ih => intro m; exact ih m
          induction l with
          | nil => intro m; rfl
          | cons e l ih => intro m; rw [List.flatMap_cons, List.foldl_append, hin, ih]
        show TiedTrains _ (List.foldl Trains.event m _)
        rw [hm, hr]
        exact hT.keep rfl rfl rfl
    · have hn : m.note (.receive rnd now p) x.2 = m := by
        cases p with
        | periodic q => exact absurd ⟨q, rfl⟩ hp
        | _ => rfl
      rw [hn]
      simp only [step] at h
      obtain ⟨y, hy, h⟩ := Res.bind_eq_ok h
      cases h
      obtain ⟨_, _, _, _, hf⟩ := receive_frame (fun q hq => hp ⟨q, hq⟩) hy
      show TiedTrains y.1.le m
      rw [hf]
      exact hT.keep rfl rfl rfl
  | tick now =>
    simp only [step] at h
    obtain ⟨y, hy, h⟩ := Res.bind_eq_ok h
    cases h
    simp only [tick] at hy
    split at hy
    · cases hy
    · rename_i le out ha
      cases hy
      have hr : runEnv s.le (.tick now) = .ret (scanning now le).1 out := by simp only [runEnv, ha]
      obtain ⟨a, -, hm, -⟩ := runEnv_tick hr
      show TiedTrains (scanning now le).1 m
      rw [hm]
      exact hT.keep rfl rfl rfl
  | sendAcl a b c d =>
    simp only [step, handleAcl] at h
    obtain ⟨y, hy, h⟩ := Res.bind_eq_ok h
    cases h
    split at hy
    · cases hy
    split at hy <;> (cases hy; exact hT)
  | disconnect a b c =>
    simp only [step, disconnect] at h
    obtain ⟨y, hy, h⟩ := Res.bind_eq_ok h
    cases h
    split at hy
    · cases hy; exact hT
    split at hy
    · cases hy
    · rename_i hr
      obtain ⟨-, rfl⟩ := removeConnection_cases hr
      cases hy
      exact hT
  | reset => cases h; exact ⟨rfl, rfl, List.nodup_nil, rfl⟩

theorem trains_run {ah : Hash} {cfg : Config} : ∀ {ops : List Op} {s t : State} {m m' : Trains},
    TiedTrains s.le m → runTrains ah cfg ops s m = .ok (t, m') → TiedTrains t.le m'
  | [], _, _, _, _, hT, h => by cases h; exact hT
  | _ :: _, _, _, _, _, hT, h => by
    simp only [runTrains] at h
    obtain ⟨y, hy, h⟩ := Res.bind_eq_ok h
    exact trains_run (trains_step hT hy) h

theorem runTrains_exists {ah : Hash} {cfg : Config} : ∀ {ops : List Op} {s t : State} {obs : List Obs} (m : Trains),
    run ah cfg ops s = .ok (t, obs) → ∃ m', runTrains ah cfg ops s m = .ok (t, m')
  | [], _, _, _, m, h => by cases h; exact ⟨m, rfl⟩
  | o :: os, _, _, _, m, h => by
    simp only [run] at h
    obtain ⟨y, hy, h⟩ := Res.bind_eq_ok h
    obtain ⟨z, hz, h⟩ := Res.bind_eq_ok h
    cases h
    simp only [runTrains, hy, Res.bind]
    exact runTrains_exists _ hz

theorem runAsk_run {ah : Hash} {cfg : Config} : ∀ {ops : List Op} {s t : State} {n n' : Ask},
    runAsk ah cfg ops s n = .ok (t, n') → ∃ obs, run ah cfg ops s = .ok (t, obs)
  | [], _, _, _, _, h => by cases h; exact ⟨[], rfl⟩
  | o :: os, _, _, _, _, h => by
    simp only [runAsk] at h
    obtain ⟨y, hy, h⟩ := Res.bind_eq_ok h
    obtain ⟨obs, ho⟩ := runAsk_run h
    exact ⟨y.2 :: obs, by simp [run, hy, ho, Res.bind]⟩

theorem waits_iff {s : Le.State} {m : Trains} (h : TiedTrains s m) (e : PalEntry) : matchesSynchronizing s e = true ↔ m.waits e := by
  unfold matchesSynchronizing Trains.waits
  rw [← h.1, ← h.2]
  cases s.synchronizing with
  | none => simp
  | some y => cases hu : y.options.useList <;> simp [hu]

theorem scansExtended_iff {s : State} {n : Ask} (h : Tied s n) : (s.le.scanner.enable = true ∧ s.le.extendedInUse = true) ↔ n.scansExtended := by
  have h6 := h.2.6
  unfold Ask.scansExtended
  cases hn : n.scan with
  | none =>
    rw [hn] at h6
    have h6 : s.le.scanner.enable = false := h6
    simp [h6]
  | some r =>
    rw [hn] at h6
    rw [h6.1, h6.3]
    simp

end Verif.Ll
