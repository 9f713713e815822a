import Verif.Le.Lemmas
import Verif.Le.SpecLists
/-!
# LE address lists: helper lemmas
-/

namespace Verif.Le

theorem checked_cases (checks : List (Bool × Status)) (s u : State) :
    (firstError checks = .success ∧ checked checks s u = (u, .success)) ∨
    (firstError checks ≠ .success ∧ checked checks s u = (s, firstError checks)) := by
  unfold checked checkedThen
  by_cases h : firstError checks = .success
  · rw [if_pos h]; exact Or.inl ⟨h, rfl⟩
  · rw [if_neg h]; exact Or.inr ⟨h, rfl⟩

theorem succeeded_error {e : Status} (h : e ≠ .success) : succeeded (some e) = false := by
  cases e <;> first | rfl | exact absurd rfl h

theorem SetSpec.unchanged {κ : Type} {op : SetOp κ} {before after : κ → Prop} {ok : Bool}
    (h : ok = false ∨ (match op with | .other => true | _ => false) = true)
    (he : ∀ x, after x ↔ before x) : SetSpec op ok before after := by
  cases op <;> cases ok <;> simp_all [SetSpec]

theorem step_filterAccept_other {cfg : Config} {s s' : State} {o : Op} {st out}
    (ho : filterAcceptOp o = .other) (h : step cfg s o = .ok s' st out) :
    s'.filterAcceptList = s.filterAcceptList := by
  cases o with
  | cmd c =>
    obtain ⟨e, he, -, -⟩ := step_cmd h
    exact runCmd_filterAccept (by cases c <;> first | rfl | cases ho) he
  | env e =>
    obtain ⟨he, -⟩ := step_env h
    exact runEnv_filterAccept (by rintro rfl; cases ho) he

theorem step_periodicList_other {cfg : Config} {s s' : State} {o : Op} {st out}
    (ho : periodicListOp o = .other) (h : step cfg s o = .ok s' st out) :
    s'.periodicAdvertiserList = s.periodicAdvertiserList := by
  cases o with
  | cmd c =>
    obtain ⟨e, he, -, -⟩ := step_cmd h
    exact runCmd_periodicList (by cases c <;> first | rfl | cases ho) he
  | env e =>
    obtain ⟨he, -⟩ := step_env h
    exact runEnv_periodicList (by rintro rfl; cases ho) he

/-- The identity of a resolving list entry. -/
def RlEntry.key (e : RlEntry) : PeerAddressType × Address := (e.peerType, e.peerAddress)

theorem map_key_of_content {l l' : List RlEntry}
    (h : l'.map RlEntry.content = l.map RlEntry.content) : l'.map RlEntry.key = l.map RlEntry.key := by
  have : ∀ l : List RlEntry, l.map RlEntry.key = (l.map RlEntry.content).map (fun x => (x.1, x.2.1)) := by
    intro l; simp [RlEntry.key, RlEntry.content]
  rw [this, this, h]

theorem step_resolving_other {cfg : Config} {s s' : State} {o : Op} {st out}
    (ho : resolvingOp o = .other) (h : step cfg s o = .ok s' st out) :
    s'.resolvingList.map RlEntry.key = s.resolvingList.map RlEntry.key := by
  cases o with
  | cmd c =>
    obtain ⟨e, he, -, -⟩ := step_cmd h
    by_cases hc : c.isResolving = false
    · exact map_key_of_content (runCmd_content hc he)
    · cases c
      case setPrivacyMode t a m =>
        simp only [runCmd, Result.of, setPrivacyMode, Result.ret.injEq] at he
        obtain ⟨rfl, -⟩ := he
        rcases checked_cases
          [(s.resolvingListEnabled && resolvingListBusy s, .commandDisallowed),
           (!s.resolvingList.any (fun e => e.peerType == t && e.peerAddress == a), .unknownConnection)]
          s _ with ⟨-, h⟩ | ⟨-, h⟩
        · rw [h]; apply modifyFirst_map; intro a; rfl
        · rw [h]
      all_goals first | (cases ho; done) | exact absurd rfl hc
  | env e =>
    obtain ⟨he, -⟩ := step_env h
    exact map_key_of_content (runEnv_content (by rintro rfl; cases ho) he)

theorem resolvable_iff (s : State) (k : PeerAddressType × Address) :
    Resolvable s k ↔ k ∈ s.resolvingList.map RlEntry.key := by
  simp [Resolvable, RlEntry.key]

theorem falMatches_iff (t : FalAddressType) (a : Address) (e : FalEntry) :
    falMatches t a e = true ↔ deviceOf e.type e.address = deviceOf t a := by
  unfold falMatches deviceOf
  cases e with
  | mk et ea => cases et <;> cases t <;> simp

theorem mem_eraseP_of_not {α : Type} {p : α → Bool} {l : List α} {x : α} (hx : p x = false) :
    x ∈ l.eraseP p ↔ x ∈ l := List.mem_eraseP_of_neg (by simp [hx])

theorem not_mem_eraseP_of_count {α : Type} {p : α → Bool} {l : List α}
    (h : l.countP p ≤ 1) : ∀ x ∈ l.eraseP p, p x = false := by
  induction l with
  | nil => intro x hx; simp at hx
  | cons a l ih =>
    intro x hx
    rw [List.countP_cons] at h
    by_cases ha : p a = true
    · rw [List.eraseP_cons_of_pos ha] at hx
      rw [if_pos ha] at h
      have : l.countP p = 0 := by omega
      rw [List.countP_eq_zero] at this
      simpa using this x hx
    · rw [List.eraseP_cons_of_neg ha] at hx
      rw [if_neg ha] at h
      rcases List.mem_cons.1 hx with rfl | hx
      · simpa using ha
      · exact ih (by omega) x hx

theorem countP_le_one_of_nodup {α β : Type} [DecidableEq β] {f : α → β} {l : List α} (b : β)
    (h : (l.map f).Nodup) : l.countP (fun x => decide (f x = b)) ≤ 1 := by
  have h1 := List.nodup_iff_count.1 h b
  rw [List.count, List.countP_map] at h1
  exact h1

/-! ### Shape of the lists -/

/-- Sizes within limits, identities distinct. -/
structure ListsOk (cfg : Config) (s : State) : Prop where
  accept : s.filterAcceptList.length ≤ cfg.filterAcceptListSize
  resolve : s.resolvingList.length ≤ cfg.resolvingListSize
  periodic : s.periodicAdvertiserList.length ≤ cfg.periodicAdvertiserListSize
  resolveKeys : (s.resolvingList.map RlEntry.key).Nodup
  periodicKeys : s.periodicAdvertiserList.Nodup

theorem firstError_cons {c : Bool} {e : Status} {r : List (Bool × Status)} (he : e ≠ .success) :
    firstError ((c, e) :: r) = .success ↔ c = false ∧ firstError r = .success := by
  cases c <;> simp [firstError, he]

theorem firstError_nil : firstError [] = .success := rfl

theorem step_filterAccept {cfg : Config} {s s' : State} {o : Op} {st out}
    (h : step cfg s o = .ok s' st out) (hs : s.filterAcceptList.length ≤ cfg.filterAcceptListSize) :
    s'.filterAcceptList.length ≤ cfg.filterAcceptListSize := by
  rcases o with c | e
  · cases c
    case addFilterAccept t a =>
      obtain ⟨e, he, -, -⟩ := step_cmd h
      obtain ⟨rfl, -⟩ := runCmd_ret_of he
      simp only [addFilterAccept]
      rcases checked_cases _ s _ with ⟨hc, hr⟩ | ⟨hc, hr⟩ <;> rw [hr]
      · simp only [firstError_cons, ne_eq, reduceCtorEq, not_false_eq_true, firstError_nil, decide_eq_false_iff_not] at hc
        simp; omega
      · exact hs
    case removeFilterAccept t a =>
      obtain ⟨e, he, -, -⟩ := step_cmd h
      obtain ⟨rfl, -⟩ := runCmd_ret_of he
      simp only [removeFilterAccept]
      rcases checked_cases _ s _ with ⟨hc, hr⟩ | ⟨hc, hr⟩ <;> rw [hr]
      · exact Nat.le_trans (List.eraseP_sublist).length_le hs
      · exact hs
    case clearFilterAccept =>
      obtain ⟨e, he, -, -⟩ := step_cmd h
      obtain ⟨rfl, -⟩ := runCmd_ret_of he
      simp only [clearFilterAccept]
      rcases checked_cases _ s _ with ⟨hc, hr⟩ | ⟨hc, hr⟩ <;> rw [hr]
      · simp
      · exact hs
    all_goals (rw [step_filterAccept_other rfl h]; exact hs)
  · cases e
    case reset => obtain ⟨he, -⟩ := step_env h; simp only [runEnv] at he; cases he; simp
    all_goals (rw [step_filterAccept_other rfl h]; exact hs)

theorem step_periodicList {cfg : Config} {s s' : State} {o : Op} {st out}
    (h : step cfg s o = .ok s' st out)
    (hs : s.periodicAdvertiserList.length ≤ cfg.periodicAdvertiserListSize ∧ s.periodicAdvertiserList.Nodup) :
    s'.periodicAdvertiserList.length ≤ cfg.periodicAdvertiserListSize ∧ s'.periodicAdvertiserList.Nodup := by
  rcases o with c | e
  · cases c
    case addPeriodicAdvertiser x =>
      obtain ⟨e, he, -, -⟩ := step_cmd h
      obtain ⟨rfl, -⟩ := runCmd_ret_of he
      simp only [addPeriodicAdvertiser]
      rcases checked_cases _ s _ with ⟨hc, hr⟩ | ⟨hc, hr⟩ <;> rw [hr]
      · simp only [firstError_cons, ne_eq, reduceCtorEq, not_false_eq_true, firstError_nil, decide_eq_false_iff_not] at hc
        refine ⟨by simp; omega, ?_⟩
        have hn := hc.2.2.1
        simp only [List.any_eq_false, beq_iff_eq] at hn
        rw [List.nodup_append]
        refine ⟨hs.2, by simp, ?_⟩
        intro a ha b hb
        simp only [List.mem_singleton] at hb
        rw [hb]; exact hn a ha
      · exact hs
    case removePeriodicAdvertiser x =>
      obtain ⟨e, he, -, -⟩ := step_cmd h
      obtain ⟨rfl, -⟩ := runCmd_ret_of he
      simp only [removePeriodicAdvertiser]
      rcases checked_cases _ s _ with ⟨hc, hr⟩ | ⟨hc, hr⟩ <;> rw [hr]
      · exact ⟨Nat.le_trans (List.eraseP_sublist).length_le hs.1, hs.2.sublist (List.eraseP_sublist)⟩
      · exact hs
    case clearPeriodicAdvertiser =>
      obtain ⟨e, he, -, -⟩ := step_cmd h
      obtain ⟨rfl, -⟩ := runCmd_ret_of he
      simp only [clearPeriodicAdvertiser]
      rcases checked_cases _ s _ with ⟨hc, hr⟩ | ⟨hc, hr⟩ <;> rw [hr]
      · simp
      · exact hs
    all_goals (rw [step_periodicList_other rfl h]; exact hs)
  · cases e
    case reset => obtain ⟨he, -⟩ := step_env h; simp only [runEnv] at he; cases he; simp
    all_goals (rw [step_periodicList_other rfl h]; exact hs)

theorem step_resolvingList {cfg : Config} {s s' : State} {o : Op} {st out}
    (h : step cfg s o = .ok s' st out)
    (hs : s.resolvingList.length ≤ cfg.resolvingListSize ∧ (s.resolvingList.map RlEntry.key).Nodup) :
    s'.resolvingList.length ≤ cfg.resolvingListSize ∧ (s'.resolvingList.map RlEntry.key).Nodup := by
  have hother : resolvingOp o = .other → s'.resolvingList.length ≤ cfg.resolvingListSize ∧
      (s'.resolvingList.map RlEntry.key).Nodup := by
    intro ho
    have hk := step_resolving_other ho h
    rw [hk]
    have := congrArg List.length hk
    simp only [List.length_map] at this
    exact ⟨by omega, hs.2⟩
  rcases o with c | e
  · cases c
    case addResolving t a pk lk =>
      obtain ⟨e, he, -, -⟩ := step_cmd h
      obtain ⟨rfl, -⟩ := runCmd_ret_of he
      simp only [addResolving]
      rcases checked_cases _ s _ with ⟨hc, hr⟩ | ⟨hc, hr⟩ <;> rw [hr]
      · simp only [firstError_cons, ne_eq, reduceCtorEq, not_false_eq_true, firstError_nil, decide_eq_false_iff_not] at hc
        refine ⟨by simp; omega, ?_⟩
        have hn := hc.2.2.1
        simp only [List.any_eq_false, Bool.or_eq_true, Bool.and_eq_true, beq_iff_eq, not_or] at hn
        rw [List.map_append, List.nodup_append]
        refine ⟨hs.2, by simp, ?_⟩
        intro a ha b hb
        simp only [List.map_cons, List.map_nil, List.mem_singleton] at hb
        obtain ⟨e, he, rfl⟩ := List.mem_map.1 ha
        rw [hb]
        intro heq
        simp only [RlEntry.key, Prod.mk.injEq] at heq
        exact (hn e he).1 heq
      · exact hs
    case removeResolving t a =>
      obtain ⟨e, he, -, -⟩ := step_cmd h
      obtain ⟨rfl, -⟩ := runCmd_ret_of he
      simp only [removeResolving]
      rcases checked_cases _ s _ with ⟨hc, hr⟩ | ⟨hc, hr⟩ <;> rw [hr]
      · exact ⟨Nat.le_trans (List.eraseP_sublist).length_le hs.1, hs.2.sublist ((List.eraseP_sublist).map _)⟩
      · exact hs
    case clearResolving =>
      obtain ⟨e, he, -, -⟩ := step_cmd h
      obtain ⟨rfl, -⟩ := runCmd_ret_of he
      simp only [clearResolving]
      rcases checked_cases _ s _ with ⟨hc, hr⟩ | ⟨hc, hr⟩ <;> rw [hr]
      · simp
      · exact hs
    all_goals exact hother rfl
  · cases e
    case reset => obtain ⟨he, -⟩ := step_env h; simp only [runEnv] at he; cases he; simp
    all_goals exact hother rfl

theorem listsOk_initial (cfg : Config) (a : Option Address) : ListsOk cfg (initial a) := by
  constructor <;> simp [initial]

theorem listsOk_step {cfg : Config} {s s' : State} {o : Op} {st out} (hs : ListsOk cfg s)
    (h : step cfg s o = .ok s' st out) : ListsOk cfg s' := by
  have h1 := step_filterAccept h hs.accept
  have h2 := step_resolvingList h ⟨hs.resolve, hs.resolveKeys⟩
  have h3 := step_periodicList h ⟨hs.periodic, hs.periodicKeys⟩
  exact ⟨h1, h2.1, h3.1, h2.2, h3.2⟩

theorem listsOk_reachable {cfg : Config} {s : State} (h : Reachable cfg s) : ListsOk cfg s :=
  reachable_invariant (P := ListsOk cfg) (listsOk_initial cfg)
    (fun _ _ _ _ _ hp hs => listsOk_step hp hs) h

end Verif.Le
