import Verif.Ll.ScanLemmas
import Verif.Le.MapLemmas
import Verif.Le.ParamLemmas
import Mathlib.Data.List.Perm.Subperm
/-!
# Periodic synchronization: helper lemmas
-/

namespace Verif.Ll
open Verif.Le

/-- Commands that write the synchronization state. -/
def writesSync : Cmd → Bool
  | .createSync .. | .createSyncCancel | .terminateSync .. => true
  | _ => false

theorem runCmd_sync {cfg : Config} {s s' : Le.State} {c : Cmd} {e : Status}
    (hc : writesSync c = false) (h : runCmd cfg s c = .ret s' e) :
    s'.synchronized = s.synchronized ∧ s'.synchronizing = s.synchronizing := by
  cases c
  case setExtAdvertisingEnable =>
    obtain ⟨m, r, x, rfl⟩ := extEnable_frame (runCmd_extEnable h); exact ⟨rfl, rfl⟩
  all_goals first | (cases hc; done) | skip
  all_goals
    obtain ⟨rfl, -⟩ := runCmd_ret_of h
    unfold_handlers
    repeat' split
    all_goals first | exact ⟨rfl, rfl⟩ | (simp_all; done)

theorem freeSyncHandle_free (m : List (Nat × Synchronized)) : ∀ (fuel h : Nat),
    (∃ k, h ≤ k ∧ k < h + fuel ∧ mapFind m k = none) →
    mapFind m (freeSyncHandle m fuel h) = none ∧
      (∀ k, h ≤ k → k < freeSyncHandle m fuel h → (mapFind m k).isSome = true) := by
  intro fuel
  induction fuel with
  | zero => rintro h ⟨k, h1, h2, -⟩; omega
  | succ fuel ih =>
    intro h ⟨k, h1, h2, hk⟩
    simp only [freeSyncHandle]
    by_cases hs : (mapFind m h).isSome = true
    · rw [if_pos hs]
      have hne : k ≠ h := by rintro rfl; rw [hk] at hs; cases hs
      obtain ⟨i1, i2⟩ := ih (h + 1) ⟨k, by omega, by omega, hk⟩
      refine ⟨i1, fun k hk1 hk2 => ?_⟩
      by_cases hke : k = h
      · subst hke; exact hs
      · exact i2 k (by omega) hk2
    · rw [if_neg hs]
      exact ⟨by simpa using hs, fun k h1 h2 => absurd h2 (by omega)⟩

/-- There is a free number among the first `length + 1`. -/
theorem exists_free (m : List (Nat × Synchronized)) :
    ∃ k, 0 ≤ k ∧ k < 0 + (m.length + 1) ∧ mapFind m k = none := by
  by_cases h : ∃ k, k < m.length + 1 ∧ mapFind m k = none
  · obtain ⟨k, h1, h2⟩ := h; exact ⟨k, Nat.zero_le _, by omega, h2⟩
  · exfalso
    have hall : ∀ k, k < m.length + 1 → k ∈ m.map (·.1) := by
      intro k hk
      by_cases hm : k ∈ m.map (·.1)
      · exact hm
      · exact absurd ⟨k, hk, Le.mapFind_none.mpr hm⟩ h
    have hsub : List.range (m.length + 1) ⊆ m.map (·.1) := fun k hk => hall k (List.mem_range.mp hk)
    have := (List.subperm_of_subset List.nodup_range hsub).length_le
    simp only [List.length_range, List.length_map] at this
    omega

theorem freeSyncHandle_spec (m : List (Nat × Synchronized)) :
    mapFind m (freeSyncHandle m (m.length + 1) 0) = none ∧
      (∀ k, k < freeSyncHandle m (m.length + 1) 0 → (mapFind m k).isSome = true) := by
  obtain ⟨h1, h2⟩ := freeSyncHandle_free m (m.length + 1) 0 (exists_free m)
  exact ⟨h1, fun k hk => h2 k (Nat.zero_le _) hk⟩

/-- What a step does to the synchronization state. -/
inductive SyncStep (s s' : Le.State) : Op → Prop
  | same {o : Op} (h1 : s'.synchronized = s.synchronized) (h2 : s'.synchronizing = s.synchronizing) :
      SyncStep s s' o
  | create {opt adv t ct} (h1 : s'.synchronized = s.synchronized)
      (h2 : s.synchronizing = none) (h3 : s'.synchronizing = some ⟨opt, adv, 10000 * t⟩)
      (h4 : opt.useList = false → ∀ e ∈ s.synchronized, e.2.advertiser ≠ adv) :
      SyncStep s s' (.cmd (.createSync opt adv t ct))
  | cancel (h1 : s'.synchronized = s.synchronized) (h2 : s'.synchronizing = none) :
      SyncStep s s' (.cmd .createSyncCancel)
  | terminate {h} (h1 : s'.synchronized = mapErase s.synchronized h)
      (h2 : s'.synchronizing = s.synchronizing) : SyncStep s s' (.cmd (.terminateSync h))
  | establish {rnd now p y h e} (h1 : s.synchronizing = some y)
      (h2 : s'.synchronizing = none) (h3 : mapFind s.synchronized h = none) (h4 : h < 65536)
      (h5 : s'.synchronized = mapSet s.synchronized h ⟨e, y.syncTimeout, now + y.syncTimeout⟩)
      (h6 : matchesSynchronizing s e = true) : SyncStep s s' (.receive rnd now (.periodic p))
  | reset (h1 : s'.synchronized = []) (h2 : s'.synchronizing = none) : SyncStep s s' .reset

theorem handleConnection_frame {s : State} {c : LeConn} {ch : Bool}
    {x : Nat × State × List Out} (h : handleConnection s c ch = .ok x) :
    ∃ i, x.2.1.le = { s.le with initiator := i } := by
  unfold handleConnection at h
  split at h
  · cases h
  split at h
  · cases h
  · cases h; exact ⟨_, rfl⟩

/-- Accepting or completing a connection leaves everything but the lists of
addresses, the advertisers and the initiator alone. -/
def ConnFrame (s s' : Le.State) : Prop :=
  ∃ r l e i, s' = { s with resolvingList := r, legacyAdv := l, extAdv := e, initiator := i }

theorem legacyConnect_frame {ah : Hash} {s : State} {init adv : AddressWithType}
    {q : LinkParams} {x : Bool × State × List Out}
    (h : legacyConnect ah s init adv q = .ok x) : ConnFrame s.le x.2.1.le := by
  obtain ⟨r, hr⟩ := resolveUpdate_frame ah s.le init
  simp only [legacyConnect] at h
  split at h
  · cases h; exact ⟨_, _, _, _, rfl⟩
  split at h
  · cases h; exact ⟨_, _, _, _, rfl⟩
  split at h
  · cases h; exact ⟨_, _, _, _, rfl⟩
  split at h
  · cases h; simp only [hr]; exact ⟨_, _, _, _, rfl⟩
  obtain ⟨y, hy, hx⟩ := Res.bind_eq_ok h
  cases hx
  obtain ⟨i, hi⟩ := handleConnection_frame hy
  simp only [hi, hr]
  exact ⟨_, _, _, _, rfl⟩

theorem extConnect_frame {ah : Hash} {s : State} {h : UInt8} {a : ExtAdv}
    {init adv : AddressWithType} {q : LinkParams} {x : Bool × State × List Out}
    (he : extConnect ah s h a init adv q = .ok x) : ConnFrame s.le x.2.1.le := by
  obtain ⟨r, hr⟩ := resolveUpdate_frame ah s.le init
  simp only [extConnect] at he
  split at he
  · cases he; exact ⟨_, _, _, _, rfl⟩
  split at he
  · cases he; exact ⟨_, _, _, _, rfl⟩
  split at he
  · cases he; exact ⟨_, _, _, _, rfl⟩
  split at he
  · cases he; simp only [hr]; exact ⟨_, _, _, _, rfl⟩
  obtain ⟨y, hy, hx⟩ := Res.bind_eq_ok he
  cases hx
  obtain ⟨i, hi⟩ := handleConnection_frame hy
  simp only [hi, hr]
  exact ⟨_, _, _, _, rfl⟩

theorem ConnFrame.trans {a b c : Le.State} (h1 : ConnFrame a b) (h2 : ConnFrame b c) :
    ConnFrame a c := by
  obtain ⟨_, _, _, _, rfl⟩ := h1
  obtain ⟨_, _, _, _, rfl⟩ := h2
  exact ⟨_, _, _, _, rfl⟩

theorem extConnectAll_frame {ah : Hash} {init adv : AddressWithType} {q : LinkParams}
    (l : List (UInt8 × ExtAdv)) : ∀ {s : State} {x : State × List Out},
      extConnectAll ah init adv q l s = .ok x → ConnFrame s.le x.1.le := by
  induction l with
  | nil => intro s x h; cases h; exact ⟨_, _, _, _, rfl⟩
  | cons e l ih =>
    intro s x h
    obtain ⟨k, a⟩ := e
    simp only [extConnectAll] at h
    obtain ⟨⟨b, s1, o1⟩, hy, hx⟩ := Res.bind_eq_ok h
    have h1 := extConnect_frame hy
    cases b with
    | true => cases hx; exact h1
    | false => exact h1.trans (ih hx)

theorem incomingConnect_frame {ah : Hash} {s : State} {init adv : AddressWithType} {q : LinkParams}
    {x : State × List Out} (h : incomingConnect ah s init adv q = .ok x) : ConnFrame s.le x.1.le := by
  simp only [incomingConnect] at h
  obtain ⟨⟨b, s1, o1⟩, hy, hx⟩ := Res.bind_eq_ok h
  have h1 := legacyConnect_frame hy
  cases b with
  | true => cases hx; exact h1
  | false => exact h1.trans (extConnectAll_frame _ hx)

theorem incomingConnectComplete_frame {ah : Hash} {s : State} {init adv : AddressWithType}
    {q : LinkParams} {x : State × List Out}
    (h : incomingConnectComplete ah s init adv q = .ok x) : ConnFrame s.le x.1.le := by
  obtain ⟨r, hr⟩ := resolveUpdate_frame ah s.le adv
  simp only [incomingConnectComplete] at h
  split at h
  · cases h; exact ⟨_, _, _, _, rfl⟩
  obtain ⟨y, hy, hx⟩ := Res.bind_eq_ok h
  cases hx
  obtain ⟨i, hi⟩ := handleConnection_frame hy
  simp only [hi, hr]
  exact ⟨_, _, _, _, rfl⟩

/-- A received packet other than periodic advertising leaves everything but the
lists of addresses, the advertisers and the initiator alone. -/
theorem receive_frame {ah : Hash} {cfg : Config} {rnd : Irk → Address} {now : Nat} {s : State}
    {p : Packet} {x : State × List Out} (hp : ∀ q, p ≠ .periodic q)
    (h : receive ah cfg rnd now s p = .ok x) : ConnFrame s.le x.1.le := by
  cases p with
  | legacyAdv p =>
    obtain ⟨y, z, hy, hz, rfl⟩ := receive_legacyAdv h
    obtain ⟨l, hi, q, h1⟩ := scanLegacy_frame hy
    rcases connectLegacy_frame hz with ⟨l', rfl⟩ | ⟨l', own, -, -, -, rfl⟩ <;>
      (rw [h1]; exact ⟨_, _, _, _, rfl⟩)
  | extAdv p =>
    obtain ⟨y, z, hy, hz, rfl⟩ := receive_extAdv h
    obtain ⟨l, hi, q, h1⟩ := scanExtended_frame hy
    rcases connectExtended_frame hz with ⟨l', rfl⟩ | ⟨l', own, -, -, -, rfl⟩ <;>
      (rw [h1]; exact ⟨_, _, _, _, rfl⟩)
  | periodic p => exact absurd rfl (hp p)
  | connect init adv q => exact incomingConnect_frame h
  | connectComplete init adv q => exact incomingConnectComplete_frame h
  | scan sc adv =>
    cases h
    obtain ⟨r, hr⟩ := resolveUpdate_frame ah s.le sc
    simp only [incomingScan, hr]
    exact ⟨_, _, _, _, rfl⟩
  | scanResponse adv a d =>
    cases h
    obtain ⟨r, hr⟩ := resolveUpdate_frame ah s.le adv
    simp only [scanResponse]
    split
    · exact ⟨_, _, _, _, rfl⟩
    split
    · exact ⟨_, _, _, _, rfl⟩
    · simp only [remember_le, hr]; exact ⟨_, _, _, _, rfl⟩
  | link a b c =>
    have := incomingLink_le (by simpa only [receive] using h)
    rw [this]; exact ⟨_, _, _, _, rfl⟩

theorem resolveUpdate_matches (ah : Hash) (s : Le.State) (a : AddressWithType) (e : PalEntry) :
    matchesSynchronizing (resolveUpdate ah s a) e = matchesSynchronizing s e := by
  obtain ⟨r, hr⟩ := resolveUpdate_frame ah s a
  rw [hr]; rfl

theorem step_sync {ah : Hash} {cfg : Config} {s : State} {o : Op} {x : State × Obs}
    (h : step ah cfg s o = .ok x) : SyncStep s.le x.1.le o := by
  cases o with
  | cmd c =>
    simp only [step] at h
    obtain ⟨y, hy, h⟩ := Res.bind_eq_ok h
    cases h
    have hr : ∃ e, runCmd cfg s.le c = .ret y.1.le e := by
      simp only [command] at hy
      split at hy
      · cases hy
      · rename_i le e hr
        split at hy <;> (cases hy; exact ⟨e, hr⟩)
    obtain ⟨e, hr⟩ := hr
    by_cases hw : writesSync c = false
    · obtain ⟨h1, h2⟩ := runCmd_sync hw hr; exact .same h1 h2
    · cases c
      case createSync opt adv t ct =>
        obtain ⟨he, -⟩ := runCmd_ret_of hr
        simp only [createSync, checked, checkedThen] at he
        split at he
        · rename_i hc
          rw [firstError_iff (by simp)] at hc
          simp only [List.mem_cons, List.not_mem_nil, or_false, forall_eq_or_imp, forall_eq] at hc
          refine .create (by rw [he]) (by simpa using hc.1) (by rw [he]) ?_
          intro hu e he' heq
          have := hc.2.2.1
          simp only [hu, Bool.not_false, Bool.true_and, List.any_eq_false, beq_iff_eq] at this
          exact this e he' heq
        · rw [he]; exact .same rfl rfl
      case createSyncCancel =>
        obtain ⟨he, -⟩ := runCmd_ret_of hr
        simp only [createSyncCancel, checked, checkedThen] at he
        split at he
        · rw [he]; exact .cancel rfl rfl
        · rw [he]; exact .same rfl rfl
      case terminateSync k =>
        obtain ⟨he, -⟩ := runCmd_ret_of hr
        simp only [terminateSync, checked, checkedThen] at he
        split at he
        · rw [he]; exact .terminate rfl rfl
        · rw [he]; exact .same rfl rfl
      all_goals exact absurd rfl hw
  | receive rnd now p =>
    simp only [step] at h
    obtain ⟨y, hy, h⟩ := Res.bind_eq_ok h
    cases h
    by_cases hp : ∃ q, p = .periodic q
    · obtain ⟨q, rfl⟩ := hp
      obtain ⟨r, hr⟩ := resolveUpdate_frame ah s.le q.adv
      simp only [receive, periodicPdu] at hy
      split at hy
      · cases hy; exact .same rfl rfl
      split at hy
      · cases hy; exact .same rfl rfl
      split at hy
      · rename_i hm
        split at hy
        · cases hy; simp only [hr]; exact .same rfl rfl
        · rename_i z hz
          split at hy
          · cases hy
          · rename_i hlt
            cases hy
            rw [resolveUpdate_matches] at hm
            have hz' : s.le.synchronizing = some z := by rw [hr] at hz; exact hz
            have hsy : (resolveUpdate ah s.le q.adv).synchronized = s.le.synchronized := by rw [hr]
            simp only [hsy] at hlt ⊢
            exact .establish hz' rfl (freeSyncHandle_spec _).1 (by omega) rfl hm
      · cases hy; simp only [hr]; exact .same rfl rfl
    · obtain ⟨_, _, _, _, hf⟩ := receive_frame (fun q hq => hp ⟨q, hq⟩) hy
      simp only [hf]
      exact .same rfl rfl
  | tick now =>
    simp only [step] at h
    obtain ⟨y, hy, h⟩ := Res.bind_eq_ok h
    cases h
    simp only [tick] at hy
    split at hy
    · cases hy
    · rename_i le out ha
      cases hy
      have he : runEnv s.le (.tick now) = .ret (scanning now le).1 out := by simp only [runEnv, ha]
      obtain ⟨m, -, hm, -⟩ := runEnv_tick he
      simp only [hm]
      exact .same rfl rfl
  | sendAcl a b c d =>
    simp only [step, handleAcl] at h
    obtain ⟨y, hy, h⟩ := Res.bind_eq_ok h
    cases h
    split at hy
    · cases hy
    split at hy <;> (cases hy; exact .same rfl rfl)
  | disconnect a b c =>
    simp only [step, disconnect] at h
    obtain ⟨y, hy, h⟩ := Res.bind_eq_ok h
    cases h
    split at hy
    · cases hy; exact .same rfl rfl
    split at hy
    · cases hy
    · rename_i hr
      cases hy
      simp only [removeConnection] at hr
      split at hr
      · cases hr; exact .same rfl rfl
      · cases hr
  | reset => cases h; exact .reset rfl rfl

/-- Every synchronization has its own handle. -/
theorem syncKeys_nodup {ah : Hash} {cfg : Config} {s : State} (h : Reachable ah cfg s) :
    (s.le.synchronized.map (·.1)).Nodup ∧ ∀ k ∈ s.le.synchronized.map (·.1), k < 65536 := by
  refine h.induct (P := fun s => (s.le.synchronized.map (·.1)).Nodup ∧ ∀ k ∈ s.le.synchronized.map (·.1), k < 65536) ?_ ?_
  · intro a; exact ⟨List.nodup_nil, fun k hk => by cases hk⟩
  · intro s o x _ ⟨hn, hk⟩ hx
    cases step_sync hx with
    | same h1 h2 => rw [h1]; exact ⟨hn, hk⟩
    | create h1 => rw [h1]; exact ⟨hn, hk⟩
    | cancel h1 => rw [h1]; exact ⟨hn, hk⟩
    | terminate h1 =>
      rw [h1]
      exact ⟨hn.sublist (mapErase_keys_sublist _ _), fun k h => hk k ((mapErase_keys_sublist _ _).subset h)⟩
    | establish h1 h2 h3 h4 h5 =>
      rw [h5]
      refine ⟨mapSet_nodup hn _ _, fun k h => ?_⟩
      rw [mapSet_keys] at h
      split at h
      · exact hk k h
      · rcases List.mem_append.mp h with h | h
        · exact hk k h
        · simp at h; omega
    | reset h1 => rw [h1]; exact ⟨List.nodup_nil, fun k hk => by cases hk⟩

end Verif.Ll
