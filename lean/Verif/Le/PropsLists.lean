import Verif.Le.ListLemmas
/-!
# C17: the LE address lists behave as bounded sets
-/

namespace Verif.Le

/-- **C17 (sizes).** In every reachable state no list is longer than the size the
controller reports. -/
theorem C17_sizes {cfg : Config} {s : State} (h : Reachable cfg s) :
    s.filterAcceptList.length ≤ cfg.filterAcceptListSize ∧
    s.resolvingList.length ≤ cfg.resolvingListSize ∧
    s.periodicAdvertiserList.length ≤ cfg.periodicAdvertiserListSize :=
  have hs := listsOk_reachable h
  ⟨hs.accept, hs.resolve, hs.periodic⟩

/-- **C17 (resolving list).** From every reachable state every operation changes the
resolving list as the corresponding operation changes a set of identities. -/
theorem C17_resolving_list {cfg : Config} {s s' : State} {o : Op} {st out} (hr : Reachable cfg s)
    (h : step cfg s o = .ok s' st out) :
    SetSpec (resolvingOp o) (succeeded st) (Resolvable s) (Resolvable s') := by
  have hs := listsOk_reachable hr
  have hother : resolvingOp o = .other →
      SetSpec (resolvingOp o) (succeeded st) (Resolvable s) (Resolvable s') := by
    intro ho
    refine SetSpec.unchanged (Or.inr (by rw [ho])) (fun x => ?_)
    rw [resolvable_iff, resolvable_iff, step_resolving_other ho h]
  rcases o with c | e
  · cases c
    case addResolving t a pk lk =>
      obtain ⟨e, he, rfl, -⟩ := step_cmd h
      obtain ⟨rfl, rfl⟩ := runCmd_ret_of he
      simp only [addResolving]
      rcases checked_cases _ s _ with ⟨hc, hr⟩ | ⟨hc, hr⟩ <;> rw [hr]
      · show ∀ x, _ ↔ _
        intro x
        simp only [resolvable_iff, List.map_append, List.mem_append, List.map_cons, List.map_nil,
          List.mem_singleton, RlEntry.key]
      · exact SetSpec.unchanged (Or.inl (succeeded_error hc)) (fun _ => Iff.rfl)
    case removeResolving t a =>
      obtain ⟨e, he, rfl, -⟩ := step_cmd h
      obtain ⟨rfl, rfl⟩ := runCmd_ret_of he
      simp only [removeResolving]
      rcases checked_cases _ s _ with ⟨hc, hr⟩ | ⟨hc, hr⟩ <;> rw [hr]
      · show ∀ x, _ ↔ _
        intro x
        have hp : ∀ e : RlEntry, (e.peerType == t && e.peerAddress == a) = decide (e.key = (t, a)) := by
          intro e; rw [Bool.eq_iff_iff]; simp [RlEntry.key]
        simp only [Resolvable, hp]
        constructor
        · rintro ⟨e, he, rfl⟩
          refine ⟨⟨e, List.mem_of_mem_eraseP he, rfl⟩, ?_⟩
          have := not_mem_eraseP_of_count (countP_le_one_of_nodup (t, a) hs.resolveKeys) e he
          simpa [RlEntry.key] using this
        · rintro ⟨⟨e, he, rfl⟩, hne⟩
          exact ⟨e, (mem_eraseP_of_not (by simpa [RlEntry.key] using hne)).2 he, rfl⟩
      · exact SetSpec.unchanged (Or.inl (succeeded_error hc)) (fun _ => Iff.rfl)
    case clearResolving =>
      obtain ⟨e, he, rfl, -⟩ := step_cmd h
      obtain ⟨rfl, rfl⟩ := runCmd_ret_of he
      simp only [clearResolving]
      rcases checked_cases _ s _ with ⟨hc, hr⟩ | ⟨hc, hr⟩ <;> rw [hr]
      · show ∀ x, ¬ _
        simp [Resolvable]
      · exact SetSpec.unchanged (Or.inl (succeeded_error hc)) (fun _ => Iff.rfl)
    all_goals exact hother rfl
  · cases e
    case reset =>
      obtain ⟨he, rfl⟩ := step_env h; simp only [runEnv] at he; cases he
      show ∀ x, ¬ _
      simp [Resolvable]
    all_goals exact hother rfl

theorem setPrivacy_mem {t : PeerAddressType} {a : Address} {m : PrivacyMode} (l : List RlEntry)
    (hn : (l.map RlEntry.key).Nodup) (t' : PeerAddressType) (a' : Address) (pk lk : Irk) (m' : PrivacyMode) :
    (t', a', pk, lk, m') ∈ (modifyFirst (fun e => e.peerType == t && e.peerAddress == a)
      (fun e => { e with privacyMode := m }) l).map RlEntry.content ↔
    if (t', a') = (t, a) then m' = m ∧ ∃ m0, (t', a', pk, lk, m0) ∈ l.map RlEntry.content
    else (t', a', pk, lk, m') ∈ l.map RlEntry.content := by
  induction l with
  | nil => simp [modifyFirst]
  | cons e l ih =>
    simp only [List.map_cons, List.nodup_cons] at hn
    simp only [modifyFirst]
    by_cases hk : e.peerType = t ∧ e.peerAddress = a
    · have hnot : ∀ pk lk m0, (t, a, pk, lk, m0) ∉ l.map RlEntry.content := by
        intro pk lk m0 hx
        apply hn.1
        obtain ⟨e', he', hx⟩ := List.mem_map.1 hx
        refine List.mem_map.2 ⟨e', he', ?_⟩
        simp only [RlEntry.content, Prod.mk.injEq] at hx
        simp [RlEntry.key, hx.1, hx.2.1, hk.1, hk.2]
      obtain ⟨rfl, rfl⟩ := hk
      simp only [BEq.rfl, Bool.and_self, if_true, List.map_cons, List.mem_cons]
      by_cases hk : (t', a') = (e.peerType, e.peerAddress)
      · simp only [Prod.mk.injEq] at hk
        obtain ⟨rfl, rfl⟩ := hk
        simp only [if_true, hnot, or_false, RlEntry.content, Prod.mk.injEq, true_and]
        constructor
        · rintro ⟨rfl, rfl, rfl⟩; exact ⟨rfl, _, rfl, rfl, rfl⟩
        · rintro ⟨rfl, m0, rfl, rfl, -⟩; exact ⟨rfl, rfl, rfl⟩
      · rw [if_neg hk]
        have h1 : ∀ m1, (t', a', pk, lk, m') ≠ (e.peerType, e.peerAddress, e.peerIrk, e.localIrk, m1) := by
          intro m1 h
          simp only [Prod.mk.injEq] at h
          exact hk (by rw [h.1, h.2.1])
        simp only [RlEntry.content]
        simp [h1]
    · have hb : (e.peerType == t && e.peerAddress == a) = false := by
        simp only [Bool.and_eq_false_iff, beq_eq_false_iff_ne]
        by_cases h : e.peerType = t
        · exact Or.inr (fun h2 => hk ⟨h, h2⟩)
        · exact Or.inl h
      simp only [hb, Bool.false_eq_true, if_false, List.map_cons, List.mem_cons]
      rw [ih hn.2]
      by_cases hk' : (t', a') = (t, a)
      · rw [if_pos hk', if_pos hk']
        simp only [Prod.mk.injEq] at hk'
        obtain ⟨rfl, rfl⟩ := hk'
        have h1 : ∀ m1, (t', a', pk, lk, m1) ≠ e.content := by
          intro m1 h
          simp only [RlEntry.content, Prod.mk.injEq] at h
          exact hk ⟨h.1.symm, h.2.1.symm⟩
        simp [h1]
      · rw [if_neg hk', if_neg hk']

/-- **C17 (resolving list entries).** From every reachable state every operation leaves
each entry of the resolving list with the keys it was added with and the privacy mode
last set for its identity. -/
theorem C17_resolving_entries {cfg : Config} {s s' : State} {o : Op} {st out} (hr : Reachable cfg s)
    (h : step cfg s o = .ok s' st out) : EntriesSpec o (succeeded st) s s' := by
  have hs := listsOk_reachable hr
  rcases o with c | v
  · obtain ⟨e, he, rfl, -⟩ := step_cmd h
    by_cases hc : c.isResolving = false
    · have := runCmd_content hc he
      cases c <;> first | exact this | cases hc
    · cases c
      all_goals first | (exact absurd rfl hc) | skip
      all_goals
        obtain ⟨rfl, rfl⟩ := runCmd_ret_of he
        simp only [addResolving, removeResolving, clearResolving, setPrivacyMode]
        rcases checked_cases _ s _ with ⟨hc, hr⟩ | ⟨hc, hr⟩ <;> rw [hr]
      all_goals first | (rw [succeeded_error hc]; exact rfl) | skip
      case addResolving.inl =>
        show ∀ x, _ ↔ _
        intro x
        simp [resolvingContent]
      case removeResolving.inl t a hcx =>
        show ∀ x, _ ↔ _
        rintro ⟨t', a', pk, lk, m'⟩
        have hp : ∀ e : RlEntry, (e.peerType == t && e.peerAddress == a) = decide (e.key = (t, a)) := by
          intro e; rw [Bool.eq_iff_iff]; simp [RlEntry.key]
        simp only [resolvingContent, hp]
        constructor
        · intro hx
          obtain ⟨e, he, hx⟩ := List.mem_map.1 hx
          refine ⟨List.mem_map.2 ⟨e, List.mem_of_mem_eraseP he, hx⟩, ?_⟩
          have := not_mem_eraseP_of_count (countP_le_one_of_nodup (t, a) hs.resolveKeys) e he
          simp only [Prod.mk.injEq] at hx
          rw [← hx.1, ← hx.2.1]
          simpa [RlEntry.key] using this
        · rintro ⟨hx, hne⟩
          obtain ⟨e, he, hx⟩ := List.mem_map.1 hx
          refine List.mem_map.2 ⟨e, (mem_eraseP_of_not ?_).2 he, hx⟩
          simp only [Prod.mk.injEq] at hx
          rw [← hx.1, ← hx.2.1] at hne
          simpa [RlEntry.key] using hne
      case clearResolving.inl => exact rfl
      case setPrivacyMode.inl t a m hcx =>
        show ∀ t' a' pk lk m', _ ↔ _
        intro t' a' pk lk m'
        exact setPrivacy_mem s.resolvingList hs.resolveKeys t' a' pk lk m'
  · obtain ⟨he, -⟩ := step_env h
    cases v
    case reset => simp only [runEnv] at he; cases he; exact rfl
    all_goals
      have := runEnv_content (by intro h; cases h) he
      exact this

/-- **C17 (periodic advertiser list).** From every reachable state every operation
changes the periodic advertiser list as the corresponding operation changes a set. -/
theorem C17_periodic_advertiser_list {cfg : Config} {s s' : State} {o : Op} {st out}
    (hr : Reachable cfg s) (h : step cfg s o = .ok s' st out) :
    SetSpec (periodicListOp o) (succeeded st) (PeriodicListed s) (PeriodicListed s') := by
  have hs := listsOk_reachable hr
  have hother : periodicListOp o = .other →
      SetSpec (periodicListOp o) (succeeded st) (PeriodicListed s) (PeriodicListed s') := by
    intro ho
    refine SetSpec.unchanged (Or.inr (by rw [ho])) (fun x => ?_)
    rw [PeriodicListed, PeriodicListed, step_periodicList_other ho h]
  rcases o with c | e
  · cases c
    case addPeriodicAdvertiser x =>
      obtain ⟨e, he, rfl, -⟩ := step_cmd h
      obtain ⟨rfl, rfl⟩ := runCmd_ret_of he
      simp only [addPeriodicAdvertiser]
      rcases checked_cases _ s _ with ⟨hc, hr⟩ | ⟨hc, hr⟩ <;> rw [hr]
      · show ∀ x, _ ↔ _
        intro y
        simp [PeriodicListed]
      · exact SetSpec.unchanged (Or.inl (succeeded_error hc)) (fun _ => Iff.rfl)
    case removePeriodicAdvertiser x =>
      obtain ⟨e, he, rfl, -⟩ := step_cmd h
      obtain ⟨rfl, rfl⟩ := runCmd_ret_of he
      simp only [removePeriodicAdvertiser]
      rcases checked_cases _ s _ with ⟨hc, hr⟩ | ⟨hc, hr⟩ <;> rw [hr]
      · show ∀ x, _ ↔ _
        intro y
        simp only [PeriodicListed]
        constructor
        · intro hy
          refine ⟨List.mem_of_mem_eraseP hy, ?_⟩
          have hn : (s.periodicAdvertiserList.map id).Nodup := by simpa using hs.periodicKeys
          have := not_mem_eraseP_of_count (p := fun e' => e' == x)
            (countP_le_one_of_nodup x hn) y hy
          simpa using this
        · rintro ⟨hy, hne⟩
          exact (mem_eraseP_of_not (by simpa using hne)).2 hy
      · exact SetSpec.unchanged (Or.inl (succeeded_error hc)) (fun _ => Iff.rfl)
    case clearPeriodicAdvertiser =>
      obtain ⟨e, he, rfl, -⟩ := step_cmd h
      obtain ⟨rfl, rfl⟩ := runCmd_ret_of he
      simp only [clearPeriodicAdvertiser]
      rcases checked_cases _ s _ with ⟨hc, hr⟩ | ⟨hc, hr⟩ <;> rw [hr]
      · show ∀ x, ¬ _
        simp [PeriodicListed]
      · exact SetSpec.unchanged (Or.inl (succeeded_error hc)) (fun _ => Iff.rfl)
    all_goals exact hother rfl
  · cases e
    case reset =>
      obtain ⟨he, rfl⟩ := step_env h; simp only [runEnv] at he; cases he
      show ∀ x, ¬ _
      simp [PeriodicListed]
    all_goals exact hother rfl

/-- **C17 (filter accept list), partial.** Every operation changes the filter accept
list as the corresponding operation changes a set of devices, provided a removed
device was added only once. Missing: removal of a device added more than once, which
the code gets wrong (`C17_filter_accept_list_violated`). -/
theorem C17_filter_accept_list_partial {cfg : Config} {s s' : State} {o : Op} {st out}
    (h : step cfg s o = .ok s' st out)
    (hdup : ∀ t a, o = .cmd (.removeFilterAccept t a) →
      s.filterAcceptList.countP (fun e => decide (deviceOf e.type e.address = deviceOf t a)) ≤ 1) :
    SetSpec (filterAcceptOp o) (succeeded st) (Accepted s) (Accepted s') := by
  have hother : filterAcceptOp o = .other →
      SetSpec (filterAcceptOp o) (succeeded st) (Accepted s) (Accepted s') := by
    intro ho
    refine SetSpec.unchanged (Or.inr (by rw [ho])) (fun x => ?_)
    rw [Accepted, Accepted, step_filterAccept_other ho h]
  rcases o with c | e
  · cases c
    case addFilterAccept t a =>
      obtain ⟨e, he, rfl, -⟩ := step_cmd h
      obtain ⟨rfl, rfl⟩ := runCmd_ret_of he
      simp only [addFilterAccept]
      rcases checked_cases _ s _ with ⟨hc, hr⟩ | ⟨hc, hr⟩ <;> rw [hr]
      · show ∀ x, _ ↔ _
        intro x
        simp only [Accepted, List.mem_append, List.mem_singleton]
        constructor
        · rintro ⟨e, he | rfl, rfl⟩
          · exact Or.inl ⟨e, he, rfl⟩
          · exact Or.inr rfl
        · rintro (⟨e, he, rfl⟩ | rfl)
          · exact ⟨e, Or.inl he, rfl⟩
          · exact ⟨⟨t, a⟩, Or.inr rfl, rfl⟩
      · exact SetSpec.unchanged (Or.inl (succeeded_error hc)) (fun _ => Iff.rfl)
    case removeFilterAccept t a =>
      have hd := hdup t a rfl
      obtain ⟨e, he, rfl, -⟩ := step_cmd h
      obtain ⟨rfl, rfl⟩ := runCmd_ret_of he
      simp only [removeFilterAccept]
      rcases checked_cases _ s _ with ⟨hc, hr⟩ | ⟨hc, hr⟩ <;> rw [hr]
      · show ∀ x, _ ↔ _
        intro x
        have hp : falMatches t a = (fun e => decide (deviceOf e.type e.address = deviceOf t a)) := by
          funext e
          rw [Bool.eq_iff_iff, falMatches_iff]
          simp
        simp only [Accepted, hp]
        constructor
        · rintro ⟨e, he, rfl⟩
          refine ⟨⟨e, List.mem_of_mem_eraseP he, rfl⟩, ?_⟩
          have := not_mem_eraseP_of_count hd e he
          simpa using this
        · rintro ⟨⟨e, he, rfl⟩, hne⟩
          exact ⟨e, (mem_eraseP_of_not (by simpa using hne)).2 he, rfl⟩
      · exact SetSpec.unchanged (Or.inl (succeeded_error hc)) (fun _ => Iff.rfl)
    case clearFilterAccept =>
      obtain ⟨e, he, rfl, -⟩ := step_cmd h
      obtain ⟨rfl, rfl⟩ := runCmd_ret_of he
      simp only [clearFilterAccept]
      rcases checked_cases _ s _ with ⟨hc, hr⟩ | ⟨hc, hr⟩ <;> rw [hr]
      · show ∀ x, ¬ _
        simp [Accepted]
      · exact SetSpec.unchanged (Or.inl (succeeded_error hc)) (fun _ => Iff.rfl)
    all_goals exact hother rfl
  · cases e
    case reset =>
      obtain ⟨he, rfl⟩ := step_env h; simp only [runEnv] at he; cases he
      show ∀ x, ¬ _
      simp [Accepted]
    all_goals exact hother rfl

/-- **C17, violated.** A device added twice to the filter accept list is still there
after it was successfully removed. -/
theorem C17_filter_accept_list_violated :
    ∃ s s', Reachable Config.default s ∧
      step Config.default s (.cmd (.removeFilterAccept .pub 1#48)) = .ok s' (some .success) [] ∧
      Accepted s' (.pub 1#48) := by
  refine ⟨{ filterAcceptList := [⟨.pub, 1#48⟩, ⟨.pub, 1#48⟩] }, { filterAcceptList := [⟨.pub, 1#48⟩] },
    ⟨none, [.cmd (.addFilterAccept .pub 1#48), .cmd (.addFilterAccept .pub 1#48)], ?_⟩, ?_, ?_⟩
  · rfl
  · rfl
  · exact ⟨⟨.pub, 1#48⟩, by simp, rfl⟩

/-- **C17 (failures).** A list command that fails changes nothing at all. -/
theorem C17_failure_changes_nothing {cfg : Config} {s s' : State} {c : Cmd} {e : Status} {out}
    (hc : c.editsList = true) (h : step cfg s (.cmd c) = .ok s' (some e) out)
    (he : e ≠ .success) : s' = s := by
  obtain ⟨e', hr, heq, -⟩ := step_cmd h
  cases heq
  cases c
  all_goals first | (cases hc; done) | skip
  all_goals
    obtain ⟨rfl, rfl⟩ := runCmd_ret_of hr
    revert he
    simp only [addResolving, removeResolving, clearResolving, setPrivacyMode, addFilterAccept,
      removeFilterAccept, clearFilterAccept, addPeriodicAdvertiser, removePeriodicAdvertiser,
      clearPeriodicAdvertiser]
    rcases checked_cases _ s _ with ⟨_, hx⟩ | ⟨_, hx⟩ <;> rw [hx]
    · intro h; exact absurd rfl h
    · intro _; rfl

/-- **C17 (in use, filter accept list), partial.** While advertising, scanning or
initiating uses the filter accept list nothing but a reset changes it. Missing: an
initiator with the filter policy "filter accept list with decision PDUs"
(`C17_filter_accept_list_in_use_violated`). -/
theorem C17_filter_accept_list_in_use_partial {cfg : Config} {s s' : State} {o : Op} {st out}
    (hu : FilterAcceptListInUse s)
    (hp : s.initiator.enable = true → s.initiator.filterPolicy ≠ .useFilterAcceptListWithDecisionPdus)
    (ho : o ≠ .env .reset) (h : step cfg s o = .ok s' st out) :
    s'.filterAcceptList = s.filterAcceptList := by
  have hb : filterAcceptListBusy s = true := by
    unfold filterAcceptListBusy
    simp only [Bool.or_eq_true, Bool.and_eq_true, bne_iff_ne, ne_eq, beq_iff_eq, List.any_eq_true,
      Prod.exists]
    rcases hu with hu | ⟨x, a, hm, hu⟩ | hu | ⟨he, hf | hf⟩
    · exact Or.inl (Or.inl (Or.inl hu))
    · exact Or.inl (Or.inl (Or.inr ⟨x, a, hm, hu⟩))
    · exact Or.inl (Or.inr hu)
    · exact Or.inr ⟨he, hf⟩
    · exact absurd hf (hp he)
  rcases o with c | e
  · cases c
    case addFilterAccept | removeFilterAccept | clearFilterAccept =>
      obtain ⟨e, he, -, -⟩ := step_cmd h
      obtain ⟨rfl, -⟩ := runCmd_ret_of he
      simp [addFilterAccept, removeFilterAccept, clearFilterAccept, checked, checkedThen, firstError, hb]
    all_goals exact step_filterAccept_other rfl h
  · cases e
    case reset => exact absurd rfl ho
    all_goals exact step_filterAccept_other rfl h

/-- A legal set of connection parameters: used by the examples. -/
def exampleConn : ConnParams := ⟨0x10, 0x10, 0x18, 0x28, 0, 0x2a, 0, 0⟩

/-- **C17, violated.** The filter accept list can be cleared while an initiator that
uses it is pending. -/
theorem C17_filter_accept_list_in_use_violated :
    ∃ s s', Reachable Config.default s ∧ FilterAcceptListInUse s ∧
      step Config.default s (.cmd .clearFilterAccept) = .ok s' (some .success) [] ∧
      Accepted s (.pub 1#48) ∧ ¬ Accepted s' (.pub 1#48) := by
  refine ⟨_, _, ⟨none, [.cmd (.addFilterAccept .pub 1#48),
    .cmd (.extendedCreateConnection (fun _ => 0) .useFilterAcceptListWithDecisionPdus .pub
      ⟨0, .publicDevice⟩ 1 [exampleConn])], rfl⟩, ?_, rfl, ?_, ?_⟩
  · exact Or.inr (Or.inr (Or.inr ⟨rfl, Or.inr rfl⟩))
  · exact ⟨⟨.pub, 1#48⟩, List.mem_singleton.2 rfl, rfl⟩
  · rintro ⟨e, he, -⟩; exact absurd he List.not_mem_nil

/-- **C17 (in use, resolving list).** While advertising, scanning or initiating is
active with address resolution enabled, nothing but a reset changes the identities,
keys and privacy modes in the resolving list. -/
theorem C17_resolving_list_in_use {cfg : Config} {s s' : State} {o : Op} {st out}
    (hu : ResolvingListInUse s) (ho : o ≠ .env .reset) (h : step cfg s o = .ok s' st out) :
    resolvingContent s' = resolvingContent s := by
  have hb : (s.resolvingListEnabled && resolvingListBusy s) = true := by
    unfold resolvingListBusy
    simp only [Bool.or_eq_true, Bool.and_eq_true, List.any_eq_true, Prod.exists]
    obtain ⟨h1, h2⟩ := hu
    refine ⟨h1, ?_⟩
    rcases h2 with hu | ⟨x, a, hm, hu⟩ | hu | hu
    · exact Or.inl (Or.inl (Or.inl hu))
    · exact Or.inl (Or.inl (Or.inr ⟨x, a, hm, hu⟩))
    · exact Or.inl (Or.inr hu)
    · exact Or.inr hu
  rcases o with c | e
  · obtain ⟨e, he, -, -⟩ := step_cmd h
    cases c
    case addResolving | removeResolving | clearResolving | setPrivacyMode =>
      obtain ⟨rfl, -⟩ := runCmd_ret_of he
      simp [addResolving, removeResolving, clearResolving, setPrivacyMode, checked, checkedThen, firstError, hb]
    all_goals exact runCmd_content rfl he
  · obtain ⟨he, -⟩ := step_env h
    exact runEnv_content (by rintro rfl; exact ho rfl) he

/-- **C17, violated.** With address resolution enabled the resolving list can be
cleared while LE Periodic Advertising Create Sync is pending. -/
theorem C17_resolving_list_sync_violated :
    ∃ s s', Reachable Config.default s ∧ s.resolvingListEnabled = true ∧
      s.synchronizing.isSome = true ∧
      step Config.default s (.cmd .clearResolving) = .ok s' (some .success) [] ∧
      Resolvable s (.pub, 1#48) ∧ ¬ Resolvable s' (.pub, 1#48) := by
  refine ⟨_, _, ⟨none, [.cmd (.addResolving .pub 1#48 5#128 6#128),
    .cmd (.setAddressResolutionEnable true),
    .cmd (.createSync {} ⟨.pub, 2#48, 0⟩ 100 0)], rfl⟩, rfl, rfl, rfl, ?_, ?_⟩
  · exact ⟨_, List.mem_singleton.2 rfl, rfl⟩
  · rintro ⟨e, he, -⟩; exact absurd he List.not_mem_nil

/-- **C17 (in use, periodic advertiser list).** While LE Periodic Advertising Create
Sync is pending nothing but a reset changes the periodic advertiser list. -/
theorem C17_periodic_advertiser_list_in_use {cfg : Config} {s s' : State} {o : Op} {st out}
    (hu : s.synchronizing.isSome = true) (ho : o ≠ .env .reset)
    (h : step cfg s o = .ok s' st out) :
    s'.periodicAdvertiserList = s.periodicAdvertiserList := by
  rcases o with c | e
  · cases c
    case addPeriodicAdvertiser | removePeriodicAdvertiser | clearPeriodicAdvertiser =>
      obtain ⟨e, he, -, -⟩ := step_cmd h
      obtain ⟨rfl, -⟩ := runCmd_ret_of he
      simp [addPeriodicAdvertiser, removePeriodicAdvertiser, clearPeriodicAdvertiser, checked,
        checkedThen, firstError, hu]
    all_goals exact step_periodicList_other rfl h
  · cases e
    case reset => exact absurd rfl ho
    all_goals exact step_periodicList_other rfl h

/-- **C17 (acceptance).** When the list is free, the commands fail only for the
documented reasons: adding fails exactly when the list is full or (resolving and
periodic lists) the entry conflicts, removing exactly when the entry is missing. -/
theorem C17_acceptance {cfg : Config} {s : State} (hb : filterAcceptListBusy s = false)
    (hr : (s.resolvingListEnabled && resolvingListBusy s) = false) (hy : s.synchronizing = none) :
    (∀ t a, (addFilterAccept cfg s t a).2 = .success ↔ s.filterAcceptList.length < cfg.filterAcceptListSize) ∧
    (∀ t a pk lk, (addResolving cfg s t a pk lk).2 = .success ↔
      s.resolvingList.length < cfg.resolvingListSize ∧ ¬ Resolvable s (t, a) ∧
      ∀ e ∈ s.resolvingList, e.peerIrk = pk → pk = 0) ∧
    (∀ t a, (removeResolving s t a).2 = .success ↔ Resolvable s (t, a)) ∧
    (∀ e, (addPeriodicAdvertiser cfg s e).2 = .success ↔
      s.periodicAdvertiserList.length < cfg.periodicAdvertiserListSize ∧ ¬ PeriodicListed s e) ∧
    (∀ e, (removePeriodicAdvertiser s e).2 = .success ↔ PeriodicListed s e) := by
  have key : ∀ (cs : List (Bool × Status)) (u : State),
      (checked cs s u).2 = .success ↔ firstError cs = .success := by
    intro cs u
    rcases checked_cases cs s u with ⟨h, hx⟩ | ⟨h, hx⟩ <;> rw [hx] <;> simp [h]
  refine ⟨fun t a => ?_, fun t a pk lk => ?_, fun t a => ?_, fun e => ?_, fun e => ?_⟩
  · rw [addFilterAccept, key]
    simp [firstError_cons, firstError_nil, hb]
  · rw [addResolving, key]
    simp only [firstError_cons, ne_eq, reduceCtorEq, not_false_eq_true, firstError_nil, hr, true_and,
      decide_eq_false_iff_not, Nat.not_le, and_true, List.any_eq_false, Bool.or_eq_true,
      Bool.and_eq_true, beq_iff_eq, bne_iff_ne, not_or, not_and, Decidable.not_not, ge_iff_le]
    refine and_congr_right fun _ => ⟨fun hx => ⟨?_, fun e he => (hx e he).2⟩, fun hx e he => ⟨?_, hx.2 e he⟩⟩
    · rintro ⟨e, he, hk⟩; cases hk; exact (hx e he).1 rfl rfl
    · rintro rfl rfl; exact hx.1 ⟨e, he, rfl⟩
  · rw [removeResolving, key]
    simp [firstError_cons, firstError_nil, hr, Resolvable]
  · rw [addPeriodicAdvertiser, key]
    simp only [firstError_cons, ne_eq, reduceCtorEq, not_false_eq_true, firstError_nil, hy,
      Option.isSome_none, true_and, decide_eq_false_iff_not, Nat.not_le, and_true,
      List.any_eq_false, beq_iff_eq, ge_iff_le, PeriodicListed]
    refine and_congr_right fun _ => ⟨fun hx hm => hx e hm rfl, fun hx e' he' heq => hx (heq ▸ he')⟩
  · rw [removePeriodicAdvertiser, key]
    simp [firstError_cons, firstError_nil, hy, PeriodicListed]

/-! ### The hypotheses are met -/

/-- A reachable state with entries in all three lists. -/
example : ∃ s, Reachable Config.default s ∧ s.filterAcceptList.length = 2 ∧
    s.resolvingList.length = 1 ∧ s.periodicAdvertiserList.length = 1 ∧ s.resolvingListEnabled = true ∧
    ResolvingListInUse s ∧ FilterAcceptListInUse s ∧ s.synchronizing.isSome = true :=
  ⟨_, ⟨none, [.cmd (.addFilterAccept .pub 1#48), .cmd (.addFilterAccept .anonymous 0),
    .cmd (.addResolving .pub 1#48 5#128 6#128), .cmd (.addPeriodicAdvertiser ⟨.pub, 1#48, 3⟩),
    .cmd (.setAddressResolutionEnable true), .cmd (.createSync { useList := true } ⟨.pub, 0, 0⟩ 100 0),
    .cmd (.setScanParameters .active 0x10 0x10 .pub .filterAcceptListOnly),
    .cmd (.setScanEnable true false)], rfl⟩, rfl, rfl, rfl, rfl,
    ⟨rfl, Or.inr (Or.inr (Or.inl rfl))⟩, Or.inr (Or.inr (Or.inl ⟨rfl, Or.inl rfl⟩)), rfl⟩

/-- Removing a device added once. -/
example : step Config.default { filterAcceptList := [⟨.pub, 1#48⟩, ⟨.random, 1#48⟩] }
    (.cmd (.removeFilterAccept .pub 1#48)) =
      .ok { filterAcceptList := [⟨.random, 1#48⟩] } (some .success) [] := rfl

/-- A failing command. -/
example : (addResolving Config.default { resolvingList := [⟨.pub, 1#48, 0, 0, .network, none, none⟩] }
    .pub 1#48 3#128 4#128).2 = .invalidHciCommandParameters := rfl

/-- A state with nothing in use. -/
example : filterAcceptListBusy (initial none) = false ∧
    ((initial none).resolvingListEnabled && resolvingListBusy (initial none)) = false ∧
    (initial none).synchronizing = none := ⟨rfl, rfl, rfl⟩

end Verif.Le
