import Verif.Le.RefuseLemmas

/-! # C106: reasons to refuse an LE command -/
namespace Verif.Le

/-- In every state, the status of an LE command is that of the first reason to refuse it, `success` if there is none. -/
theorem C106_status {cfg : Config} {s s' : State} {c : Cmd} {st : Status} {out : List AdvOut}
    (h : step cfg s (.cmd c) = .ok s' (some st) out) : First (reasons cfg s c) st := by
  have hr : runCmd cfg s c = .ret s' st := by
    simp only [step] at h
    split at h
    · rename_i hr; cases h; exact hr
    · cases h
  clear h
  cases c
  case setExtAdvertisingEnable now rnd e sets => exact extEnable_first cfg now rnd s e sets _ (runCmd_extEnable hr)
  all_goals
    simp only [runCmd] at hr
    obtain ⟨-, rfl⟩ := runCmd_ret_of hr
    clear hr
  case setExtAdvertisingData => exact data_first ..
  case setExtScanResponseData => exact scanResponse_first ..
  case setPeriodicData => exact periodicData_first ..
  case setRandomAddress a =>
    simp only [reasons, setRandomAddress, checked_snd, first_error]
    exact First.ite (by simp only [Bool.or_eq_true, or_assoc]) fun _ => First.ite (by simp only [beq_iff_eq]) fun _ => First.nil
  case setRpaTimeout t =>
    simp only [reasons, setRpaTimeout, checked_snd, first_error]
    exact First.ite (by simp only [decide_eq_true_eq]; omega) fun _ => First.nil
  case addResolving t a pk lk =>
    simp only [reasons, addResolving, checked_snd, first_error]
    refine First.ite (resolvingInUse_iff s) fun _ => First.ite (by simp only [decide_eq_true_eq]) fun _ => First.ite ?_ fun _ => First.nil
    simp only [Resolvable, List.any_eq_true, Bool.or_eq_true, Bool.and_eq_true, beq_iff_eq, bne_iff_ne, Prod.mk.injEq]
    grind
  case removeResolving t a =>
    simp only [reasons, removeResolving, checked_snd, first_error]
    exact First.ite (resolvingInUse_iff s) fun _ => First.ite (by rw [Bool.not_eq_true', Bool.eq_false_iff, Ne, resolvable_any]) fun _ => First.nil
  case clearResolving =>
    simp only [reasons, clearResolving, checked_snd, first_error]
    exact First.ite (resolvingInUse_iff s) fun _ => First.nil
  case setAddressResolutionEnable =>
    simp only [reasons, setAddressResolutionEnable, checked_snd, first_error]
    exact First.ite (resolvingBusy_iff s) fun _ => First.nil
  case setPrivacyMode t a m =>
    simp only [reasons, setPrivacyMode, checked_snd, first_error]
    exact First.ite (resolvingInUse_iff s) fun _ => First.ite (by rw [Bool.not_eq_true', Bool.eq_false_iff, Ne, resolvable_any]) fun _ => First.nil
  case clearFilterAccept =>
    simp only [reasons, clearFilterAccept, checked_snd, first_error]
    exact First.ite (locked_iff s) fun _ => First.nil
  case addFilterAccept =>
    simp only [reasons, addFilterAccept, checked_snd, first_error]
    exact First.ite (locked_iff s) fun _ => First.ite (by simp only [decide_eq_true_eq]) fun _ => First.nil
  case removeFilterAccept =>
    simp only [reasons, removeFilterAccept, checked_snd, first_error]
    exact First.ite (locked_iff s) fun _ => First.nil
  case addPeriodicAdvertiser e =>
    simp only [reasons, addPeriodicAdvertiser, checked_snd, first_error]
    refine First.ite ?_ fun _ => First.ite (by simp only [decide_eq_true_eq]) fun _ => First.ite ?_ fun _ => First.nil
    · cases s.synchronizing <;> simp
    · simp [PeriodicListed]
  case removePeriodicAdvertiser e =>
    simp only [reasons, removePeriodicAdvertiser, checked_snd, first_error]
    refine First.ite ?_ fun _ => First.ite ?_ fun _ => First.nil
    · cases s.synchronizing <;> simp
    · simp only [PeriodicListed, Bool.not_eq_true', List.any_eq_false, beq_iff_eq]
      exact ⟨fun h he => h e he rfl, fun h x hx he => h (he ▸ hx)⟩
  case clearPeriodicAdvertiser =>
    simp only [reasons, clearPeriodicAdvertiser, checked_snd, first_error]
    refine First.ite ?_ fun _ => First.nil
    cases s.synchronizing <;> simp
  case createSync o adv t cte =>
    simp only [reasons, createSync, checked_snd, first_error]
    refine First.orIte ?_ fun _ => First.ite (and31 cte) fun _ => First.ite ?_ fun _ => First.ite ?_ fun _ => First.ite ?_ fun _ => First.nil
    · cases s.synchronizing <;> simp
    · simp only [Bool.and_eq_true, Bool.not_eq_true', List.any_eq_true, beq_iff_eq]
    · simp only [Bool.and_eq_true, Bool.not_eq_true', and_assoc]
    · simp only [Bool.and_eq_true, Bool.not_eq_true']
  case createSyncCancel =>
    simp only [reasons, createSyncCancel, checked_snd, first_error]
    exact First.ite Option.isNone_iff_eq_none fun _ => First.nil
  case terminateSync h =>
    simp only [reasons, terminateSync, checked_snd, first_error]
    refine First.ite ?_ fun _ => First.nil
    rw [Option.isNone_iff_eq_none, mapFind_none, List.mem_map]
    exact ⟨fun h e he hh => h ⟨e, he, hh⟩, fun h ⟨e, he, hh⟩ => h e he hh⟩
  case setScanParameters t i w own policy =>
    simp only [reasons, setScanParameters, withLegacy_snd, checked_snd, first_error]
    exact First.orIte Iff.rfl fun _ => First.ite Iff.rfl fun _ => First.ite (by simp only [decide_eq_true_eq]; omega) fun _ =>
      First.ite (by simp only [decide_eq_true_eq]) fun _ => First.nil
  case setScanEnable e f =>
    simp only [reasons, setScanEnable, withLegacy_snd]
    refine First.ite Iff.rfl fun _ => ?_
    cases e
    · exact First.skip (by simp) rfl
    · simp only [Bool.true_eq_false, if_false, checked_snd, first_error, true_and]
      exact First.ite (noScan_iff _) fun _ => First.nil
  case setExtendedScanParameters own policy phys params =>
    simp only [reasons, setExtendedScanParameters, withExtended_snd, checked_snd, List.cons_append, List.nil_append, first_error]
    refine First.orIte Iff.rfl fun _ => First.ite Iff.rfl fun _ => First.ite ?_ fun _ => First.orIte ?_ fun _ => First.orIte ?_ fun _ => scanPhys_first params
    · have := onlySupported_iff cfg phys.toNat phys.toNat_lt
      rw [← this]; simp
    · rw [popcount_eq]; simp
    · rw [beq_iff_eq]; exact ⟨fun h => UInt8.toNat_inj.1 h, fun h => by rw [h]; rfl⟩
  case setExtendedScanEnable now e fd duration period =>
    simp only [reasons, setExtendedScanEnable, withExtended_snd]
    refine First.ite Iff.rfl fun _ => ?_
    cases e
    · exact First.skip (by simp) rfl
    · simp only [Bool.true_eq_false, if_false, checked_snd, first_error, true_and]
      refine First.orIte ?_ fun _ => First.orIte ?_ fun _ => First.ite (noScan_iff _) fun _ => First.nil
      · by_cases hd : duration = 0 <;> simp [hd]
      · by_cases hd : duration = 0
        · simp [hd]
        · simp [hd]; omega
  case createConnection rnd policy peer own p =>
    simp only [reasons, createConnection, withLegacy_snd]
    refine First.orIte Iff.rfl fun _ => ?_
    have hc := conn_first p [] [] First.nil
    simp only [List.append_nil] at hc
    rw [checkedThen_snd, first_error]
    by_cases he : s.initiator.enable = true
    · rw [if_pos he, if_neg (by simp)]; exact Or.inl ⟨he, rfl⟩
    · rw [if_neg he]
      refine First.skip he (First.append (connReasons_errors p) hc fun _ => ?_)
      have ha := initiatorAddressCheck_snd rnd { s with legacyInUse := true } policy peer own
      rw [apply_ite Prod.snd]
      refine First.ite ?_ fun _ => First.nil
      rw [show OwnAddressAvailable s policy peer own ↔ OwnAddressAvailable { s with legacyInUse := true } policy peer own by cases own <;> exact Iff.rfl, ← ha]
      simp
  case createConnectionCancel =>
    simp only [reasons, createConnectionCancel, checked_snd, first_error]
    exact First.ite (by simp) fun _ => First.nil
  case extendedCreateConnection rnd policy own peer phys params =>
    simp only [reasons, extendedCreateConnection, withExtended_snd]
    refine First.orIte Iff.rfl fun _ => ?_
    have hc := conns_first params [] [] First.nil
    simp only [List.append_nil] at hc
    rw [checkedThen_snd]
    change First (((s.initiator.enable = true, .commandDisallowed) :: (8 ≤ phys.toNat, .unsupportedFeatureOrParameterValue) ::
      (bitCount phys.toNat ≠ params.length ∨ phys = 0, .invalidHciCommandParameters) :: params.flatMap connReasons) ++ _) _
    refine First.append ?_ ?_ fun _ => ?_
    · intro x hx
      simp only [List.mem_cons] at hx
      rcases hx with rfl | rfl | rfl | hx
      · simp
      · simp
      · simp
      · exact conns_errors params x hx
    · simp only [List.cons_append, List.nil_append, first_error]
      refine First.ite Iff.rfl fun _ => First.ite ?_ fun _ => First.orIte (by rw [popcount_eq]; simp) fun _ => First.ite ?_ fun _ => hc
      · have hm := mask_lt_8 phys.toNat_lt
        rw [← Nat.not_lt, ← hm]; simp
      · rw [beq_iff_eq]; exact ⟨fun h => UInt8.toNat_inj.1 h, fun h => by rw [h]; rfl⟩
    have ha := initiatorAddressCheck_snd rnd { s with extendedInUse := true } policy peer own
    rw [apply_ite Prod.snd]
    refine First.ite ?_ fun _ => First.nil
    rw [show OwnAddressAvailable s policy peer own ↔ OwnAddressAvailable { s with extendedInUse := true } policy peer own by cases own <;> exact Iff.rfl, ← ha]
    simp
  case setAdvertisingParameters p =>
    simp only [reasons, setAdvertisingParameters, withLegacy_snd, checked_snd, first_error]
    refine First.orIte Iff.rfl fun _ => First.ite Iff.rfl fun _ => First.ite (and7 _) fun _ => First.ite ?_ fun _ => First.ite ?_ fun _ => First.nil
    · by_cases ht : p.type = .advDirectIndHigh <;> simp [ht]; omega
    · by_cases ht : p.type = .advDirectIndHigh <;> simp [ht]
  case setAdvertisingData d =>
    simp only [reasons, setAdvertisingData, withLegacy_snd]
    exact First.ite Iff.rfl fun _ => First.nil
  case setScanResponseData d =>
    simp only [reasons, setScanResponseData, withLegacy_snd]
    exact First.ite Iff.rfl fun _ => First.nil
  case setAdvertisingEnable now rnd e =>
    simp only [reasons, setAdvertisingEnable, withLegacy_snd]
    refine First.ite Iff.rfl fun _ => ?_
    cases e
    · exact First.skip (by simp) rfl
    · simp only [Bool.true_eq_false, if_false, true_and]
      have hc := choose_none s.resolvingList (rnd 0) s.legacyAdv.ownAddressType ⟨cfg.publicAddress, .publicDevice⟩ s.randomAddress
        s.legacyAdv.peerAddressType s.legacyAdv.peerAddress
      split
      · rename_i hx; exact Or.inl ⟨hc.1 hx, rfl⟩
      · rename_i hx; exact First.skip (fun h => by rw [hc.2 h] at hx; cases hx) rfl
  case setAdvertisingSetRandomAddress h a =>
    simp only [reasons, setAdvertisingSetRandomAddress, State.onSet]
    change First (match mapFind s.extAdv h with | none => _ | some a => _) _
    cases mapFind s.extAdv h with
    | none => exact Or.inl ⟨trivial, rfl⟩
    | some a => simp only [checked_snd, first_error]; exact First.ite Iff.rfl fun _ => First.nil
  case setExtAdvertisingParameters h p =>
    simp only [reasons, setExtAdvertisingParameters, withExtended_snd, checked_snd, first_error]
    refine First.ite Iff.rfl fun _ => First.ite ?_ fun _ => params_first _ _
    rw [Bool.and_eq_true, Option.isNone_iff_eq_none, decide_eq_true_eq]; rfl
  case removeAdvertisingSet h =>
    simp only [reasons, removeAdvertisingSet, State.onSet]
    change First (match mapFind s.extAdv h with | none => _ | some a => _) _
    cases mapFind s.extAdv h with
    | none => exact Or.inl ⟨trivial, rfl⟩
    | some a => simp only [checked_snd, first_error]; exact First.ite Iff.rfl fun _ => First.nil
  case clearAdvertisingSets =>
    simp only [reasons, clearAdvertisingSets, checked_snd, first_error]
    exact First.ite (by simp only [List.any_eq_true, Prod.exists]) fun _ => First.nil
  case setPeriodicParameters h i j =>
    simp only [reasons, setPeriodicParameters, State.onSet]
    change First (match mapFind s.extAdv h with | none => _ | some a => _) _
    cases mapFind s.extAdv h with
    | none => exact Or.inl ⟨trivial, rfl⟩
    | some a =>
      simp only [checked_snd, first_error]
      refine First.congr (p := (i < 6 ∨ j < 6 ∨ j < i) ∨ NotPeriodic a) (by simp only [or_assoc]) ?_
      exact First.orIte (by simp only [decide_eq_true_eq]) fun _ => First.ite (by simp only [EventProperties.notPeriodic, NotPeriodic, Bool.or_eq_true, or_assoc]) fun _ =>
        First.ite Iff.rfl fun _ => First.ite (by simp only [decide_eq_true_eq]; rfl) fun _ => First.nil
  case setPeriodicEnable now e adi h =>
    simp only [reasons, setPeriodicEnable, State.onSet]
    change First (match mapFind s.extAdv h with | none => _ | some a => _) _
    cases mapFind s.extAdv h with
    | none => exact Or.inl ⟨trivial, rfl⟩
    | some a =>
      cases e
      · rfl
      · simp only [Bool.true_eq_false, if_false, if_true, checked_snd, first_error]
        exact First.orIte Iff.rfl fun _ => First.ite (by simp only [beq_iff_eq]) fun _ => First.ite (by simp only [decide_eq_true_eq]; rfl) fun _ =>
          First.ite (by simp only [EventProperties.notPeriodic, NotPeriodic, Bool.or_eq_true, or_assoc]) fun _ =>
          First.ite (by simp only [Bool.and_eq_true, Bool.not_eq_true']) fun _ => First.nil

/-- The status is determined by the reasons. -/
theorem C106_unique {rs : List (Prop × Status)} {a b : Status} (ha : First rs a) (hb : First rs b) : a = b := by
  induction rs with
  | nil => rw [ha, hb]
  | cons r rs ih =>
    obtain ⟨p, e⟩ := r
    rcases ha with ⟨hp, rfl⟩ | ⟨hp, ha⟩ <;> rcases hb with ⟨hq, rfl⟩ | ⟨hq, hb⟩
    · rfl
    · exact absurd hp hq
    · exact absurd hq hp
    · exact ih ha hb

/-! ### Cases -/

/-- A scanner that scans for a while, then every kind of refusal. -/
def refused : List (Cmd × Status) :=
  [(.setRandomAddress 0, .invalidHciCommandParameters),
   (.setRpaTimeout 3601, .invalidHciCommandParameters),
   (.removeResolving .pub 5, .unknownConnection),
   (.createSyncCancel, .commandDisallowed),
   (.terminateSync 3, .unknownAdvertisingIdentifier),
   (.setScanParameters .active 3 4 .pub .acceptAll, .unsupportedFeatureOrParameterValue),
   (.setScanParameters .active 4 5 .pub .acceptAll, .invalidHciCommandParameters),
   (.createConnection (fun _ => 0) .usePeerAddress ⟨5, .publicDevice⟩ .random ⟨4, 4, 6, 6, 0, 10, 0, 0⟩, .invalidHciCommandParameters),
   (.createConnection (fun _ => 0) .usePeerAddress ⟨5, .publicDevice⟩ .pub ⟨4, 4, 6, 3200, 0, 799, 0, 0⟩, .invalidHciCommandParameters),
   (.createConnection (fun _ => 0) .usePeerAddress ⟨5, .publicDevice⟩ .pub ⟨4, 4, 6, 3200, 0, 800, 0, 0⟩, .success),
   (.setExtAdvertisingData 1 .completeAdvertisement [1], .unknownAdvertisingIdentifier)]

example : refused.map (fun x => match step Config.default (initial none) (.cmd x.1) with | .ok _ st _ => st | _ => none) =
    refused.map (fun x => some x.2) := by decide +kernel

/-- A set whose data is not complete is not enabled, and a set cannot be listed twice. -/
example :
    let ops : List Op := [.cmd (.setExtAdvertisingParameters 1 ⟨{}, 32, 32, 7, .pub, .pub, 0, .allDevices, 0, .le1m, 0, .le1m, 0, false⟩),
      .cmd (.setExtAdvertisingData 1 .firstFragment [1, 2])]
    (run Config.default ops (initial none)).map (fun s =>
      [[(⟨1, 0, 0⟩ : EnabledSet)], [⟨1, 0, 0⟩, ⟨1, 0, 0⟩], [⟨2, 0, 0⟩], []].map (fun sets =>
        match step Config.default s (.cmd (.setExtAdvertisingEnable 0 (fun _ _ => 0) true sets)) with | .ok _ st _ => st | _ => none)) =
    some [some .commandDisallowed, some .invalidHciCommandParameters, some .unknownAdvertisingIdentifier, some .invalidHciCommandParameters] := by
  decide +kernel

end Verif.Le
