import Verif.Le.Step
/-!
# LE command layer: helper lemmas
-/

namespace Verif.Le

/-- Unfold every command handler. -/
macro "unfold_handlers" : tactic => `(tactic|
  simp only [setRandomAddress, setRpaTimeout, addResolving, removeResolving, clearResolving,
    setAddressResolutionEnable, setPrivacyMode, clearFilterAccept, addFilterAccept,
    removeFilterAccept, addPeriodicAdvertiser, removePeriodicAdvertiser, clearPeriodicAdvertiser,
    createSync, createSyncCancel, terminateSync, setScanParameters, setScanEnable,
    setExtendedScanParameters, setExtendedScanEnable, createConnection, createConnectionCancel,
    extendedCreateConnection, setAdvertisingParameters, setAdvertisingData, setScanResponseData,
    setAdvertisingEnable, setAdvertisingSetRandomAddress, setExtAdvertisingParameters,
    setExtAdvertisingData, setExtScanResponseData, removeAdvertisingSet, clearAdvertisingSets,
    setPeriodicParameters, setPeriodicData, setPeriodicEnable, checked, checkedThen, withLegacy,
    withExtended, initiatorAddressCheck])

theorem runCmd_ret_of {r : State × Status} {s' : State} {e : Status}
    (h : Result.of r = .ret s' e) : s' = r.1 ∧ e = r.2 := by
  cases h; exact ⟨rfl, rfl⟩

theorem validateSets_frame (cfg : Config) (rnd : Nat → Irk → Address) (sets : List EnabledSet) :
    ∀ (i : Nat) (s : State), ∃ m r, (validateSets cfg rnd i sets s).1 =
      { s with extAdv := m, resolvingList := r } := by
  induction sets with
  | nil => intro i s; exact ⟨s.extAdv, s.resolvingList, rfl⟩
  | cons set sets ih =>
    intro i s
    simp only [validateSets, checkedThen]
    split
    · split
      · exact ⟨_, _, rfl⟩
      · obtain ⟨m, r, h⟩ := ih (i + 1) { s with resolvingList := (generateRpa (rnd (2 * i)) (peerDeviceAddress ((mapFind s.extAdv set.handle).getD {}).peerAddress ((mapFind s.extAdv set.handle).getD {}).peerAddressType) .loc s.resolvingList).1, extAdv := mapSet s.extAdv set.handle { (mapFind s.extAdv set.handle).getD {} with advertisingAddress := _, targetAddress := _ } }
        exact ⟨m, r, h⟩
    · exact ⟨s.extAdv, s.resolvingList, rfl⟩

/-- LE Set Extended Advertising Enable only writes the advertising sets, the
resolving list (generated addresses) and the selection flag. -/
theorem extEnable_frame {cfg : Config} {now : Nat} {rnd : Nat → Irk → Address} {s s' : State}
    {enable : Bool} {sets : List EnabledSet} {e : Status}
    (h : setExtAdvertisingEnable cfg now rnd s enable sets = some (s', e)) :
    ∃ m r x, s' = { s with extAdv := m, resolvingList := r, extendedInUse := x } := by
  simp only [setExtAdvertisingEnable] at h
  split at h
  · cases h; exact ⟨_, _, _, rfl⟩
  · split at h
    · cases h
    · cases h; exact ⟨_, _, _, rfl⟩
    · obtain ⟨m, r, hv⟩ := validateSets_frame cfg rnd sets 0 { s with extendedInUse := true }
      simp only [hv] at h
      split at h
      · cases h; exact ⟨_, _, _, rfl⟩
      · split at h
        · cases h; exact ⟨_, _, _, rfl⟩
        · split at h
          · cases h; exact ⟨_, _, _, rfl⟩
          · split at h <;> (cases h; exact ⟨_, _, _, rfl⟩)

theorem runCmd_extEnable {cfg : Config} {s s' : State} {now rnd enable sets e}
    (h : runCmd cfg s (.setExtAdvertisingEnable now rnd enable sets) = .ret s' e) :
    setExtAdvertisingEnable cfg now rnd s enable sets = some (s', e) := by
  simp only [runCmd] at h
  split at h
  · rename_i r hr; obtain ⟨h1, h2⟩ := runCmd_ret_of h; rw [hr, h1, h2]
  · cases h


/-! ### Induction over reachable states -/

theorem run_invariant {cfg : Config} {P : State → Prop}
    (hstep : ∀ s o s' st out, P s → step cfg s o = .ok s' st out → P s')
    (ops : List Op) : ∀ (s s' : State), P s → run cfg ops s = some s' → P s' := by
  induction ops with
  | nil => intro s s' hp h; cases h; exact hp
  | cons o ops ih =>
    intro s s' hp h
    simp only [run] at h
    split at h
    · rename_i s1 st out hs
      exact ih s1 s' (hstep _ _ _ _ _ hp hs) h
    · cases h
    · cases h

theorem reachable_invariant {cfg : Config} {P : State → Prop} (h0 : ∀ a, P (initial a))
    (hstep : ∀ s o s' st out, P s → step cfg s o = .ok s' st out → P s')
    {s : State} (h : Reachable cfg s) : P s := by
  obtain ⟨a, ops, hr⟩ := h
  exact run_invariant hstep ops _ _ (h0 a) hr

theorem step_cmd {cfg : Config} {s s' : State} {c : Cmd} {st out}
    (h : step cfg s (.cmd c) = .ok s' st out) :
    ∃ e, runCmd cfg s c = .ret s' e ∧ st = some e ∧ out = [] := by
  simp only [step] at h
  split at h
  · rename_i s1 e he; cases h; exact ⟨e, he, rfl, rfl⟩
  · cases h

theorem step_env {cfg : Config} {s s' : State} {e : Env} {st out}
    (h : step cfg s (.env e) = .ok s' st out) :
    runEnv s e = .ret s' out ∧ st = none := by
  simp only [step] at h
  split at h
  · rename_i s1 o he; cases h; exact ⟨he, rfl⟩
  · cases h

theorem runEnv_tick {s s' : State} {now out} (h : runEnv s (.tick now) = .ret s' out) :
    ∃ m, tickExtAll now s.extAdv = some m ∧
      s' = { s with legacyAdv := (tickLegacy now s.legacyAdv).1, extAdv := m.1, scanner := (scanning now s).1.scanner } ∧
      out = (tickLegacy now s.legacyAdv).2 ++ m.2 := by
  simp only [runEnv, advertising] at h
  cases hm : tickExtAll now s.extAdv with
  | none => rw [hm] at h; simp at h
  | some m =>
    rw [hm] at h
    simp only [EnvResult.ret.injEq] at h
    refine ⟨m, rfl, ?_, h.2.symm⟩
    rw [← h.1]
    unfold scanning
    repeat' split
    all_goals rfl

/-- Unfold an environment step other than the tick. -/
macro "unfold_env" h:ident : tactic => `(tactic|
  (simp only [runEnv] at $h:ident
   (try split at $h:ident)
   all_goals (cases $h:ident)))

/-! ### Lists -/

/-- Commands on the filter accept list. -/
def Cmd.isFilterAccept : Cmd → Bool
  | .clearFilterAccept | .addFilterAccept .. | .removeFilterAccept .. => true
  | _ => false

theorem runCmd_filterAccept {cfg : Config} {s s' : State} {c : Cmd} {e : Status}
    (hc : c.isFilterAccept = false) (h : runCmd cfg s c = .ret s' e) :
    s'.filterAcceptList = s.filterAcceptList := by
  cases c
  case setExtAdvertisingEnable =>
    obtain ⟨m, r, x, rfl⟩ := extEnable_frame (runCmd_extEnable h); rfl
  all_goals first | (cases hc; done) | skip
  all_goals
    obtain ⟨rfl, -⟩ := runCmd_ret_of h
    unfold_handlers
    repeat' split
    all_goals first | rfl | (simp_all; done)

/-- Commands on the resolving list, and the commands that generate addresses. -/
def Cmd.writesResolving : Cmd → Bool
  | .addResolving .. | .removeResolving .. | .clearResolving | .setPrivacyMode ..
  | .createConnection .. | .extendedCreateConnection .. | .setAdvertisingEnable ..
  | .setExtAdvertisingEnable .. => true
  | _ => false

theorem runCmd_resolving {cfg : Config} {s s' : State} {c : Cmd} {e : Status}
    (hc : c.writesResolving = false) (h : runCmd cfg s c = .ret s' e) :
    s'.resolvingList = s.resolvingList := by
  cases c
  all_goals first | (cases hc; done) | skip
  all_goals
    obtain ⟨rfl, -⟩ := runCmd_ret_of h
    unfold_handlers
    repeat' split
    all_goals first | rfl | (simp_all; done)

/-- Commands on the periodic advertiser list. -/
def Cmd.isPeriodicList : Cmd → Bool
  | .addPeriodicAdvertiser .. | .removePeriodicAdvertiser .. | .clearPeriodicAdvertiser => true
  | _ => false

theorem runCmd_periodicList {cfg : Config} {s s' : State} {c : Cmd} {e : Status}
    (hc : c.isPeriodicList = false) (h : runCmd cfg s c = .ret s' e) :
    s'.periodicAdvertiserList = s.periodicAdvertiserList := by
  cases c
  case setExtAdvertisingEnable =>
    obtain ⟨m, r, x, rfl⟩ := extEnable_frame (runCmd_extEnable h); rfl
  all_goals first | (cases hc; done) | skip
  all_goals
    obtain ⟨rfl, -⟩ := runCmd_ret_of h
    unfold_handlers
    repeat' split
    all_goals first | rfl | (simp_all; done)

theorem runEnv_filterAccept {s s' : State} {e : Env} {out} (he : e ≠ .reset)
    (h : runEnv s e = .ret s' out) : s'.filterAcceptList = s.filterAcceptList := by
  cases e
  case tick => obtain ⟨m, -, rfl, -⟩ := runEnv_tick h; rfl
  case reset => exact absurd rfl he
  all_goals unfold_env h
  all_goals rfl

theorem runEnv_periodicList {s s' : State} {e : Env} {out} (he : e ≠ .reset)
    (h : runEnv s e = .ret s' out) : s'.periodicAdvertiserList = s.periodicAdvertiserList := by
  cases e
  case tick => obtain ⟨m, -, rfl, -⟩ := runEnv_tick h; rfl
  case reset => exact absurd rfl he
  all_goals unfold_env h
  all_goals rfl

/-- The host-provided part of a resolving list entry. -/
def RlEntry.content (e : RlEntry) : PeerAddressType × Address × Irk × Irk × PrivacyMode :=
  (e.peerType, e.peerAddress, e.peerIrk, e.localIrk, e.privacyMode)

theorem generateRpa_content (rnd : Irk → Address) (a : AddressWithType) (sel : IrkSelection)
    (l : List RlEntry) : (generateRpa rnd a sel l).1.map RlEntry.content = l.map RlEntry.content := by
  induction l with
  | nil => rfl
  | cons e l ih =>
    simp only [generateRpa]
    split
    · cases sel <;> rfl
    · simp [ih]

theorem modifyFirst_map {α β : Type} (p : α → Bool) (f : α → α) (g : α → β)
    (hg : ∀ a, g (f a) = g a) (l : List α) : (modifyFirst p f l).map g = l.map g := by
  induction l with
  | nil => rfl
  | cons a l ih =>
    simp only [modifyFirst]
    split
    · simp [hg]
    · simp [ih]

theorem validateSets_content (cfg : Config) (rnd : Nat → Irk → Address) (sets : List EnabledSet) :
    ∀ (i : Nat) (s : State), (validateSets cfg rnd i sets s).1.resolvingList.map RlEntry.content =
      s.resolvingList.map RlEntry.content := by
  induction sets with
  | nil => intro i s; rfl
  | cons set sets ih =>
    intro i s
    simp only [validateSets, checkedThen]
    split
    · split
      · exact generateRpa_content _ _ _ _
      · rw [ih]; exact generateRpa_content _ _ _ _
    · rfl

theorem extEnable_content {cfg : Config} {now : Nat} {rnd : Nat → Irk → Address} {s s' : State}
    {enable : Bool} {sets : List EnabledSet} {e : Status}
    (h : setExtAdvertisingEnable cfg now rnd s enable sets = some (s', e)) :
    s'.resolvingList.map RlEntry.content = s.resolvingList.map RlEntry.content := by
  simp only [setExtAdvertisingEnable] at h
  split at h
  · cases h; rfl
  · split at h
    · cases h
    · cases h; rfl
    · split at h
      · cases h; rfl
      · split at h
        · cases h; rfl
        · split at h
          · cases h; rfl
          · split at h
            · cases h; exact validateSets_content cfg rnd sets 0 { s with extendedInUse := true }
            · cases h; exact validateSets_content cfg rnd sets 0 { s with extendedInUse := true }

/-- Commands on the resolving list. -/
def Cmd.isResolving : Cmd → Bool
  | .addResolving .. | .removeResolving .. | .clearResolving | .setPrivacyMode .. => true
  | _ => false

/-- Every command but the resolving list commands keeps the host-provided content of
the resolving list. -/
theorem runCmd_content {cfg : Config} {s s' : State} {c : Cmd} {e : Status}
    (hc : c.isResolving = false)
    (h : runCmd cfg s c = .ret s' e) :
    s'.resolvingList.map RlEntry.content = s.resolvingList.map RlEntry.content := by
  by_cases hw : c.writesResolving = false
  · rw [runCmd_resolving hw h]
  · cases c
    case setExtAdvertisingEnable => exact extEnable_content (runCmd_extEnable h)
    all_goals first | (cases hc; done) | (exact absurd rfl hw) | skip
    all_goals
      obtain ⟨rfl, -⟩ := runCmd_ret_of h
      unfold_handlers
      repeat' split
      all_goals first | rfl | exact generateRpa_content _ _ _ _

theorem runEnv_content {s s' : State} {e : Env} {out} (he : e ≠ .reset)
    (h : runEnv s e = .ret s' out) :
    s'.resolvingList.map RlEntry.content = s.resolvingList.map RlEntry.content := by
  cases e
  case tick => obtain ⟨m, -, rfl, -⟩ := runEnv_tick h; rfl
  case reset => exact absurd rfl he
  all_goals unfold_env h
  case resolved => apply modifyFirst_map; intro a; rfl
  case rpaGenerated => exact generateRpa_content _ _ _ _
  all_goals rfl

end Verif.Le
