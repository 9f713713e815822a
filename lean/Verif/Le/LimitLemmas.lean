import Verif.Le.SpecLimit
import Verif.Le.AdvLemmas
/-!
# Limited advertising sets: helper lemmas
-/

namespace Verif.Le

/-- The same, as seen by the limits of the set `h`. -/
def SameLimits (m m' : List (UInt8 × ExtAdv)) (h : UInt8) : Prop :=
  (∀ a, mapFind m h = some a → a.enable = true → ∃ a', mapFind m' h = some a' ∧ a'.enable = true ∧
    a'.timeout = a.timeout ∧ a'.maxEvents = a.maxEvents ∧ a'.numCompletedEvents = a.numCompletedEvents) ∧
  ((∀ a, mapFind m h = some a → a.enable = false) → ∀ a, mapFind m' h = some a → a.enable = false)

theorem SameLimits.refl (m : List (UInt8 × ExtAdv)) (h : UInt8) : SameLimits m m h :=
  ⟨fun a ha he => ⟨a, ha, he, rfl, rfl, rfl⟩, fun x => x⟩

theorem SameLimits.of_find {m m' : List (UInt8 × ExtAdv)} {h : UInt8} (e : mapFind m' h = mapFind m h) :
    SameLimits m m' h :=
  ⟨fun a ha he => ⟨a, by rw [e, ha], he, rfl, rfl, rfl⟩, fun x => by rw [e]; exact x⟩

theorem SameLimits.set {m : List (UInt8 × ExtAdv)} {k : UInt8} {a a' : ExtAdv} (h : UInt8)
    (hf : mapFind m k = some a) (h1 : a'.enable = a.enable) (h2 : a'.timeout = a.timeout)
    (h3 : a'.maxEvents = a.maxEvents) (h4 : a'.numCompletedEvents = a.numCompletedEvents) :
    SameLimits m (mapSet m k a') h := by
  by_cases hk : k = h
  · subst hk
    refine ⟨fun b hb he => ⟨a', by rw [mapFind_mapSet, if_pos rfl], ?_⟩, fun hx b hb => ?_⟩
    · rw [hf] at hb; cases hb
      exact ⟨by rw [h1, he], h2, h3, h4⟩
    · rw [mapFind_mapSet, if_pos rfl] at hb; cases hb
      rw [h1]; exact hx a hf
  · exact SameLimits.of_find (by rw [mapFind_mapSet, if_neg hk])

theorem SameLimits.setOff {m : List (UInt8 × ExtAdv)} {k : UInt8} {a' : ExtAdv} (h : UInt8)
    (hf : ∀ a, mapFind m k = some a → a.enable = false) (h1 : a'.enable = false) :
    SameLimits m (mapSet m k a') h := by
  by_cases hk : k = h
  · subst hk
    refine ⟨fun b hb he => ?_, fun hx b hb => ?_⟩
    · rw [hf b hb] at he; cases he
    · rw [mapFind_mapSet, if_pos rfl] at hb; cases hb
      exact h1
  · exact SameLimits.of_find (by rw [mapFind_mapSet, if_neg hk])

theorem validateSets_find (cfg : Config) (rnd : Nat → Irk → Address) (h : UInt8) (sets : List EnabledSet) :
    ∀ i s, sets.any (fun x => x.handle == h) = false →
    mapFind (validateSets cfg rnd i sets s).1.extAdv h = mapFind s.extAdv h := by
  induction sets with
  | nil => intro i s _; rfl
  | cons x sets ih =>
    intro i s hx
    simp only [List.any_cons, Bool.or_eq_false_iff, beq_eq_false_iff_ne] at hx
    simp only [validateSets, checkedThen]
    repeat' split
    all_goals first | rfl | (rw [ih _ _ hx.2, mapFind_mapSet, if_neg hx.1])

theorem enableSets_find (now : Nat) (h : UInt8) (sets : List EnabledSet) :
    ∀ m, sets.any (fun x => x.handle == h) = false →
    mapFind (enableSets now sets m) h = mapFind m h := by
  induction sets with
  | nil => intro m _; rfl
  | cons x sets ih =>
    intro m hx
    simp only [List.any_cons, Bool.or_eq_false_iff, beq_eq_false_iff_ne] at hx
    rw [enableSets, ih _ hx.2, mapFind_mapSet, if_neg hx.1]

theorem disableSets_find (h : UInt8) (sets : List EnabledSet) :
    ∀ m, sets.any (fun x => x.handle == h) = false →
    mapFind (disableSets sets m) h = mapFind m h := by
  induction sets with
  | nil => intro m _; rfl
  | cons x sets ih =>
    intro m hx
    simp only [List.any_cons, Bool.or_eq_false_iff, beq_eq_false_iff_ne] at hx
    rw [disableSets, ih _ hx.2, mapFind_mapSet, if_neg hx.1]

theorem runCmd_limits {cfg : Config} {s s' : State} {c : Cmd} {e : Status} {h : UInt8}
    (hc : Op.switches h (.cmd c) = false) (hr : runCmd cfg s c = .ret s' e) :
    SameLimits s.extAdv s'.extAdv h := by
  by_cases hw : c.writesAdv = false
  · rw [runCmd_extAdv hw hr]; exact SameLimits.refl _ _
  · cases c
    all_goals first | (exact absurd rfl hw) | skip
    case setExtAdvertisingEnable now rnd en sets =>
      simp only [Op.switches, Bool.or_eq_false_iff] at hc
      simp only [runCmd] at hr
      split at hr
      · rename_i r hx
        obtain ⟨rfl, -⟩ := runCmd_ret_of hr
        simp only [setExtAdvertisingEnable] at hx
        have hne : sets ≠ [] := fun x => by simp [x] at hc
        split at hx
        · cases hx; exact SameLimits.refl _ _
        · split at hx
          · cases hx
          · cases hx; exact SameLimits.refl _ _
          · rw [if_neg (fun x => hne x.2)] at hx
            first | rw [if_neg hne] at hx | skip
            split at hx
            · cases hx; exact SameLimits.of_find (disableSets_find h sets _ hc.2)
            · split at hx
              · cases hx
                refine SameLimits.of_find ?_
                show mapFind (enableSets now sets (validateSets cfg rnd 0 sets { s with extendedInUse := true }).1.extAdv) h = _
                rw [enableSets_find _ _ _ _ hc.2, validateSets_find _ _ _ _ _ _ hc.2]
              · cases hx
                exact SameLimits.of_find (validateSets_find _ _ _ _ _ _ hc.2)
      · cases hr
    all_goals obtain ⟨rfl, -⟩ := runCmd_ret_of hr
    case setAdvertisingSetRandomAddress k x =>
      unfold setAdvertisingSetRandomAddress
      split
      · exact SameLimits.refl _ _
      · rename_i a hf
        rcases checked_cases _ s _ with ⟨-, hr⟩ | ⟨-, hr⟩ <;> rw [hr]
        · exact SameLimits.set h hf rfl rfl rfl rfl
        · exact SameLimits.refl _ _
    case setExtAdvertisingParameters k p =>
      simp only [setExtAdvertisingParameters, withExtended]
      split
      · exact SameLimits.refl _ _
      · rcases checked_cases ((_, _) :: extParamChecks _ p) { s with extendedInUse := true } _ with ⟨hc, hr⟩ | ⟨hc, hr⟩ <;> rw [hr]
        · rw [firstError_cons (by simp)] at hc
          have hen := hc.2
          unfold extParamChecks at hen
          rw [firstError_cons (by simp)] at hen
          have hen := hen.1
          refine SameLimits.setOff h (fun a ha => ?_) ?_
          · simp only [ha, Option.getD_some] at hen; exact hen
          · exact hen
        · exact SameLimits.refl _ _
    case setExtAdvertisingData k op d =>
      simp only [setExtAdvertisingData, withExtended, checkedThen]
      repeat' split
      all_goals first
        | exact SameLimits.refl _ _
        | (refine SameLimits.set h (by assumption) ?_ ?_ ?_ ?_ <;> rfl)
    case setExtScanResponseData k op d =>
      simp only [setExtScanResponseData, withExtended, checkedThen]
      repeat' split
      all_goals first
        | exact SameLimits.refl _ _
        | (refine SameLimits.set h (by assumption) ?_ ?_ ?_ ?_ <;> rfl)
    case removeAdvertisingSet k =>
      unfold removeAdvertisingSet
      split
      · exact SameLimits.refl _ _
      · rename_i a hf
        rcases checked_cases _ s _ with ⟨hz, hr⟩ | ⟨-, hr⟩ <;> rw [hr]
        · rw [firstError_cons (by simp)] at hz
          by_cases hk : k = h
          · subst hk
            refine ⟨fun b hb he => ?_, fun hx b hb => ?_⟩
            · rw [hf] at hb; cases hb; rw [hz.1] at he; cases he
            · rw [mapFind_mapErase, if_pos rfl] at hb; cases hb
          · exact SameLimits.of_find (by rw [mapFind_mapErase, if_neg hk])
        · exact SameLimits.refl _ _
    case clearAdvertisingSets =>
      unfold clearAdvertisingSets
      rcases checked_cases _ s _ with ⟨hz, hr⟩ | ⟨-, hr⟩ <;> rw [hr]
      · rw [firstError_cons (by simp)] at hz
        refine ⟨fun b hb he => ?_, fun hx b hb => ?_⟩
        · have := List.any_eq_false.1 hz.1 _ (mapFind_mem hb)
          exact absurd he this
        · cases hb
      · exact SameLimits.refl _ _
    case setPeriodicParameters k i j =>
      unfold setPeriodicParameters
      split
      · exact SameLimits.refl _ _
      · rename_i a hf
        rcases checked_cases _ s _ with ⟨-, hr⟩ | ⟨-, hr⟩ <;> rw [hr]
        · exact SameLimits.set h hf rfl rfl rfl rfl
        · exact SameLimits.refl _ _
    case setPeriodicData k op d =>
      simp only [setPeriodicData, checkedThen]
      repeat' split
      all_goals first
        | exact SameLimits.refl _ _
        | (refine SameLimits.set h (by assumption) ?_ ?_ ?_ ?_ <;> rfl)
    case setPeriodicEnable now en adi k =>
      unfold setPeriodicEnable
      split
      · exact SameLimits.refl _ _
      · rename_i a hf
        split
        · exact SameLimits.set h hf rfl rfl rfl rfl
        · rcases checked_cases _ s _ with ⟨-, hr⟩ | ⟨-, hr⟩ <;> rw [hr]
          · exact SameLimits.set h hf rfl rfl rfl rfl
          · exact SameLimits.refl _ _

theorem runEnv_limits {s s' : State} {v : Env} {out : List AdvOut} {h : UInt8}
    (hc : Op.switches h (.env v) = false) (ht : ∀ now, v ≠ .tick now) (hr : runEnv s v = .ret s' out) :
    SameLimits s.extAdv s'.extAdv h ∧ out = [] := by
  cases v
  case tick now => exact absurd rfl (ht now)
  case reset => cases hc
  case extendedConnected k =>
    simp only [Op.switches, beq_eq_false_iff_ne] at hc
    simp only [runEnv] at hr
    split at hr
    · cases hr; exact ⟨SameLimits.refl _ _, rfl⟩
    · cases hr; exact ⟨SameLimits.of_find (by simp only [mapFind_mapSet, if_neg hc]), rfl⟩
  case syncEstablished =>
    simp only [runEnv] at hr
    split at hr <;> cases hr <;> exact ⟨SameLimits.refl _ _, rfl⟩
  all_goals
    simp only [runEnv] at hr
    cases hr
    exact ⟨SameLimits.refl _ _, rfl⟩

/-! ### The tick -/

theorem about_append (h : UInt8) (x y : List AdvOut) : about h (x ++ y) = about h x ++ about h y := by
  simp [about]

theorem about_nil_of {h : UInt8} {x : List AdvOut} (hx : ∀ o ∈ x, o.sentBy h = false ∧ o.endOf h = false) :
    about h x = [] := by
  simp only [about, List.filter_eq_nil_iff, Bool.or_eq_true, not_or, Bool.not_eq_true]
  exact hx

theorem tickLegacy_about (now : Nat) (a : LegacyAdv) (h : UInt8) : about h (tickLegacy now a).2 = [] := by
  refine about_nil_of (fun o ho => ?_)
  rcases tickLegacy_out now a o ho with rfl | rfl <;> exact ⟨rfl, rfl⟩

theorem tickPeriodic_about (now : Nat) (k : UInt8) (a : ExtAdv) (h : UInt8) :
    about h (tickPeriodic now k a).2 = [] := by
  unfold tickPeriodic
  split <;> rfl

theorem tickPeriodic_limits (now : Nat) (k : UInt8) (a : ExtAdv) :
    (tickPeriodic now k a).1.enable = a.enable ∧ (tickPeriodic now k a).1.timeout = a.timeout ∧
    (tickPeriodic now k a).1.maxEvents = a.maxEvents ∧
    (tickPeriodic now k a).1.numCompletedEvents = a.numCompletedEvents := by
  unfold tickPeriodic
  split <;> exact ⟨rfl, rfl, rfl, rfl⟩

/-- What the tick does to one set. -/
inductive TickOf (now : Nat) (h : UInt8) (a a' : ExtAdv) (out : List AdvOut) : Prop where
  | silent (h0 : a.enable = false) (h1 : a'.enable = false) (h2 : out = [])
  | ended (h0 : a.enable = true) (h1 : a'.enable = false)
      (h2 : (∃ t, a.timeout = some t ∧ t ≤ now) ∨ (a.maxEvents ≠ 0 ∧ a.maxEvents ≤ a.numCompletedEvents))
      (h3 : out = [.setTerminated h (if a.maxEvents = 0 then 0 else a.numCompletedEvents)])
  | goesOn (h0 : a.enable = true) (h1 : a'.enable = true) (h2 : a'.timeout = a.timeout)
      (h3 : a'.maxEvents = a.maxEvents) (h4 : ∀ t, a.timeout = some t → now < t)
      (h5 : a.maxEvents = 0 ∨ a.numCompletedEvents < a.maxEvents)
      (h6 : (out = [] ∧ a'.numCompletedEvents = a.numCompletedEvents) ∨
        ∃ o, o.sentBy h = true ∧ out = [o] ∧ a'.numCompletedEvents = (a.numCompletedEvents + 1) % 256)

theorem tickExtTimeout_about (now : Nat) (h : UInt8) (a : ExtAdv) :
    ((tickExtTimeout now h a).1.enable = false ∧ ((a.enable = false ∧ (tickExtTimeout now h a).2 = []) ∨
      (a.enable = true ∧
      ((∃ t, a.timeout = some t ∧ t ≤ now) ∨ (a.maxEvents ≠ 0 ∧ a.maxEvents ≤ a.numCompletedEvents)) ∧
      about h (tickExtTimeout now h a).2 =
        [.setTerminated h (if a.maxEvents = 0 then 0 else a.numCompletedEvents)]))) ∨
    (a.enable = true ∧ tickExtTimeout now h a = (a, []) ∧ (∀ t, a.timeout = some t → now < t) ∧
      (a.maxEvents = 0 ∨ a.numCompletedEvents < a.maxEvents)) := by
  cases he : a.enable with
  | false => exact Or.inl ⟨by simp [tickExtTimeout, he], Or.inl ⟨rfl, by simp [tickExtTimeout, he]⟩⟩
  | true =>
    by_cases hx : a.timeout.any (fun t => decide (now ≥ t)) = true
    · refine Or.inl ⟨by simp [tickExtTimeout, he, hx], Or.inr ⟨rfl, Or.inl ?_, ?_⟩⟩
      · rw [Option.any_eq_true] at hx
        obtain ⟨t, ht, hn⟩ := hx
        exact ⟨t, ht, by simpa using hn⟩
      · simp only [tickExtTimeout, he, hx, Bool.and_true, if_true, Bool.false_and, Bool.false_eq_true, if_false,
          List.append_nil, about_append]
        by_cases hm : a.maxEvents = 0
        · simp only [hm, ne_eq, not_true_eq_false, if_false, if_true]
          split <;> simp [about, AdvOut.sentBy, AdvOut.endOf]
        · simp only [hm, ne_eq, not_false_eq_true, if_true, if_false]
          split <;> simp [about, AdvOut.sentBy, AdvOut.endOf]
    · have hx' : a.timeout.any (fun t => decide (now ≥ t)) = false := by simpa using hx
      have ht : ∀ t, a.timeout = some t → now < t := by
        intro t ht
        rw [ht] at hx'
        simpa using hx'
      by_cases hd : a.maxEvents ≠ 0 ∧ a.maxEvents ≤ a.numCompletedEvents
      · have hd' : (a.maxEvents != 0 && decide (a.numCompletedEvents ≥ a.maxEvents)) = true := by simpa using hd
        refine Or.inl ⟨?_, Or.inr ⟨rfl, Or.inr hd, ?_⟩⟩
        · simp [tickExtTimeout, he, hx', hd]
        · simp [tickExtTimeout, he, hx', hd, about, AdvOut.sentBy, AdvOut.endOf]
      · have hd' : (a.maxEvents != 0 && decide (a.numCompletedEvents ≥ a.maxEvents)) = false := by
          simp only [Bool.and_eq_false_iff, bne_eq_false_iff_eq, decide_eq_false_iff_not]
          omega
        refine Or.inr ⟨rfl, ?_, ht, by omega⟩
        simp only [tickExtTimeout, he, hx', Bool.and_false, Bool.false_eq_true, if_false, Bool.true_and, hd',
          List.append_nil]

theorem tickExtEvent_about {now : Nat} {h : UInt8} {a : ExtAdv} {r : ExtAdv × List AdvOut}
    (hr : tickExtEvent now h a = some r) :
    r.1.enable = a.enable ∧ r.1.timeout = a.timeout ∧ r.1.maxEvents = a.maxEvents ∧
    ((r.2 = [] ∧ r.1.numCompletedEvents = a.numCompletedEvents) ∨
      (a.enable = true ∧ ∃ o, o.sentBy h = true ∧ r.2 = [o] ∧
        r.1.numCompletedEvents = (a.numCompletedEvents + 1) % 256)) := by
  simp only [tickExtEvent] at hr
  split at hr
  · rename_i hc
    split at hr
    · split at hr
      · cases hr
      · cases hr
        exact ⟨rfl, rfl, rfl, Or.inr ⟨hc.1, _, by simp [AdvOut.sentBy], rfl, rfl⟩⟩
    · cases hr
      exact ⟨rfl, rfl, rfl, Or.inr ⟨hc.1, _, by simp [AdvOut.sentBy], rfl, rfl⟩⟩
  · cases hr
    exact ⟨rfl, rfl, rfl, Or.inl ⟨rfl, rfl⟩⟩

theorem tickExt_about {now : Nat} {h : UInt8} {a : ExtAdv} {r : ExtAdv × List AdvOut}
    (hr : tickExt now h a = some r) : TickOf now h a r.1 (about h r.2) := by
  simp only [tickExt] at hr
  split at hr
  · cases hr
  · rename_i r2 h2
    cases hr
    obtain ⟨p1, p2, p3, p4⟩ := tickPeriodic_limits now h r2.1
    obtain ⟨e1, e2, e3, e4⟩ := tickExtEvent_about h2
    simp only [about_append, tickPeriodic_about, List.append_nil]
    rcases tickExtTimeout_about now h a with ⟨t1, t2⟩ | ⟨t1, t2, t3, t4⟩
    · have hoff : about h r2.2 = [] := by
        rcases e4 with ⟨e4, -⟩ | ⟨e4, -⟩
        · rw [e4]; rfl
        · rw [t1] at e4; cases e4
      rw [hoff, List.append_nil]
      rcases t2 with ⟨t2, t3⟩ | ⟨t2, t3, t4⟩
      · exact .silent t2 (by rw [p1, e1, t1]) (by rw [t3]; rfl)
      · exact .ended t2 (by rw [p1, e1, t1]) t3 t4
    · rw [t2] at e1 e2 e3 e4 ⊢
      refine .goesOn t1 (by rw [p1, e1, t1]) (by rw [p2, e2]) (by rw [p3, e3]) t3 t4 ?_
      rcases e4 with ⟨e4, e5⟩ | ⟨-, o, e4, e5, e6⟩
      · exact Or.inl ⟨by rw [e4]; rfl, by rw [p4, e5]⟩
      · exact Or.inr ⟨o, e4, by rw [e5]; simp [about, e4], by rw [p4, e6]⟩

theorem tickExt_other {now : Nat} {h k : UInt8} (hk : k ≠ h) {a : ExtAdv} {r : ExtAdv × List AdvOut}
    (hr : tickExt now k a = some r) : about h r.2 = [] := by
  have hf : (k == h) = false := by simpa using hk
  simp only [tickExt] at hr
  split at hr
  · cases hr
  · rename_i r2 h2
    cases hr
    simp only [about_append, tickPeriodic_about, List.append_nil]
    have h1 : about h (tickExtTimeout now k a).2 = [] := by
      have hlist : ∀ (c1 c2 c3 : Bool) (n n' : Nat), about h
          ((if c1 then (if c2 then [AdvOut.directedTimeout] else []) ++ [AdvOut.setTerminated k n] else []) ++
            (if c3 then [AdvOut.setTerminated k n'] else [])) = [] := by
        intro c1 c2 c3 n n'
        cases c1 <;> cases c2 <;> cases c3 <;> simp [about, AdvOut.sentBy, AdvOut.endOf, hf]
      unfold tickExtTimeout
      exact hlist _ _ _ _ _
    rw [h1, List.nil_append]
    simp only [tickExtEvent] at h2
    split at h2
    · split at h2
      · split at h2
        · cases h2
        · cases h2; simp [about, AdvOut.sentBy, AdvOut.endOf, hf]
      · cases h2; simp [about, AdvOut.sentBy, AdvOut.endOf, hf]
    · cases h2; rfl

theorem tickExtAll_about {now : Nat} {h : UInt8} (m : List (UInt8 × ExtAdv)) : ∀ r, tickExtAll now m = some r →
    (m.map (·.1)).Nodup →
    (mapFind m h = none ∧ mapFind r.1 h = none ∧ about h r.2 = []) ∨
    ∃ a a', mapFind m h = some a ∧ mapFind r.1 h = some a' ∧ TickOf now h a a' (about h r.2) := by
  induction m with
  | nil =>
    intro r hr _
    simp only [tickExtAll, Option.some.injEq] at hr
    subst hr
    exact Or.inl ⟨rfl, rfl, rfl⟩
  | cons e m ih =>
    obtain ⟨k, a⟩ := e
    intro r hr hn
    simp only [List.map_cons, List.nodup_cons] at hn
    simp only [tickExtAll] at hr
    split at hr
    · cases hr
    · rename_i a' o h1
      split at hr
      · cases hr
      · rename_i m' o' h2
        cases hr
        have ih := ih _ h2 hn.2
        simp only [mapFind_cons, about_append]
        by_cases hk : k = h
        · subst hk
          rw [if_pos rfl, if_pos rfl]
          have hnone := mapFind_none.2 hn.1
          have ho' : about k o' = [] := by
            rcases ih with ⟨-, -, h3⟩ | ⟨b, -, h3, -⟩
            · exact h3
            · rw [hnone] at h3; cases h3
          exact Or.inr ⟨a, a', rfl, rfl, by rw [ho', List.append_nil]; exact tickExt_about h1⟩
        · rw [if_neg hk, if_neg hk, tickExt_other hk h1, List.nil_append]
          exact ih

end Verif.Le
