import Verif.Le.ListLemmas
import Verif.Le.MapLemmas
import Verif.Le.SpecAdv
/-!
# Advertising sets: helper lemmas
-/

namespace Verif.Le

/-- Commands that write advertising sets. -/
def Cmd.writesAdv : Cmd → Bool
  | .setAdvertisingSetRandomAddress .. | .setExtAdvertisingParameters ..
  | .setExtAdvertisingData .. | .setExtScanResponseData .. | .setExtAdvertisingEnable ..
  | .removeAdvertisingSet .. | .clearAdvertisingSets
  | .setPeriodicParameters .. | .setPeriodicData .. | .setPeriodicEnable .. => true
  | _ => false

theorem runCmd_extAdv {cfg : Config} {s s' : State} {c : Cmd} {e : Status}
    (hc : c.writesAdv = false) (h : runCmd cfg s c = .ret s' e) : s'.extAdv = s.extAdv := by
  cases c
  all_goals first | (cases hc; done) | skip
  all_goals
    obtain ⟨rfl, -⟩ := runCmd_ret_of h
    unfold_handlers
    repeat' split
    all_goals first | rfl | (simp_all; done)

/-- The invariant of one advertising set. -/
structure AdvOk (a : ExtAdv) : Prop where
  legacyTable : a.properties.legacy = true → legacyEventTypes.contains (a.properties.raw - 0x10) = true
  extended1 : a.properties.legacy = false → ¬ (a.properties.connectable = true ∧ a.properties.scannable = true)
  extended2 : a.properties.legacy = false →
    ¬ (a.properties.connectable = true ∧ a.properties.directed = true ∧ a.properties.highDutyCycle = true)
  noData : a.properties.canHaveData = false → a.data = []
  noScan : a.properties.scannable = false → a.scanResponse = []
  legacyLen : a.properties.legacy = true → a.data.length ≤ 31 ∧ a.scanResponse.length ≤ 31
  scanMax : a.scanResponse.length ≤ 1650
  periodicMax : a.periodicData.length ≤ 1650
  enabledData : a.enable = true → a.data.length ≤ a.properties.maxData
  enabledWhole : a.enable = true → a.partialData = false ∧ a.partialScanResponse = false
  latch : a.periodicLatch = true → a.periodicEnable = true
  periodic : a.periodicEnable = true → a.properties.notPeriodic = false ∧ a.partialPeriodicData = false ∧
    a.periodicInterval ≥ 6
  period : a.periodicInterval = 0 ∨ a.periodicInterval ≥ 6
  interval : a.interval ≥ 0x20
  channels : a.channelMap ≠ 0

/-- The data of one set agrees with its history. -/
structure HistOk (a : ExtAdv) (d s p : Hist) : Prop where
  data : a.data = assembled d ∧ a.partialData = incomplete d
  scan : a.scanResponse = assembled s ∧ a.partialScanResponse = incomplete s
  periodic : a.periodicData = assembled p ∧ a.partialPeriodicData = incomplete p

/-- The invariant of one entry of the map. -/
def EntryOk (x : Option ExtAdv) (d s p : Hist) : Prop :=
  match x with
  | none => d = [] ∧ s = [] ∧ p = []
  | some a => AdvOk a ∧ HistOk a d s p

/-- The invariant of the map of advertising sets. -/
structure AdvsOk (cfg : Config) (m : List (UInt8 × ExtAdv)) (g : Ghost) : Prop where
  keys : (m.map (·.1)).Nodup
  size : m.length ≤ cfg.numSupportedAdvertisingSets
  entries : ∀ h, EntryOk (mapFind m h) (g.data h) (g.scan h) (g.periodic h)

theorem advsOk_nil (cfg : Config) : AdvsOk cfg [] {} :=
  ⟨by simp, by simp, fun h => by simp [mapFind_nil, EntryOk]⟩

/-- Replace an existing set. -/
theorem AdvsOk.set {cfg : Config} {m : List (UInt8 × ExtAdv)} {g g' : Ghost} {h : UInt8} {a a' : ExtAdv}
    (hm : AdvsOk cfg m g) (hf : mapFind m h = some a)
    (hg : ∀ k, k ≠ h → g'.data k = g.data k ∧ g'.scan k = g.scan k ∧ g'.periodic k = g.periodic k)
    (ha : AdvOk a → HistOk a (g.data h) (g.scan h) (g.periodic h) →
      AdvOk a' ∧ HistOk a' (g'.data h) (g'.scan h) (g'.periodic h)) :
    AdvsOk cfg (mapSet m h a') g' := by
  refine ⟨mapSet_nodup hm.keys h a', ?_, fun k => ?_⟩
  · have := congrArg List.length (mapSet_keys_of_find hf a')
    simp only [List.length_map] at this
    rw [this]; exact hm.size
  · rw [mapFind_mapSet]
    have he := hm.entries h
    rw [hf] at he
    by_cases hk : h = k
    · subst hk; rw [if_pos rfl]; exact ha he.1 he.2
    · rw [if_neg hk]
      obtain ⟨g1, g2, g3⟩ := hg k (fun e => hk e.symm)
      rw [g1, g2, g3]; exact hm.entries k

/-- Replace an existing set without touching the histories. -/
theorem AdvsOk.set' {cfg : Config} {m : List (UInt8 × ExtAdv)} {g : Ghost} {h : UInt8} {a a' : ExtAdv}
    (hm : AdvsOk cfg m g) (hf : mapFind m h = some a)
    (ha : AdvOk a → AdvOk a' ∧ a'.data = a.data ∧ a'.partialData = a.partialData ∧
      a'.scanResponse = a.scanResponse ∧ a'.partialScanResponse = a.partialScanResponse ∧
      a'.periodicData = a.periodicData ∧ a'.partialPeriodicData = a.partialPeriodicData) :
    AdvsOk cfg (mapSet m h a') g := by
  refine hm.set hf (fun _ _ => ⟨rfl, rfl, rfl⟩) (fun h1 h2 => ?_)
  obtain ⟨x0, x1, x2, x3, x4, x5, x6⟩ := ha h1
  refine ⟨x0, ?_⟩
  constructor
  · rw [x1, x2]; exact h2.data
  · rw [x3, x4]; exact h2.scan
  · rw [x5, x6]; exact h2.periodic

/-! ### Properties -/

/-- A statement about event properties that is checked on all 128 of them. -/
theorem forall_properties {P : EventProperties → Prop}
    (h : ∀ c s d hd l an tx, P ⟨c, s, d, hd, l, an, tx⟩) (p : EventProperties) : P p := by
  obtain ⟨c, s, d, hd, l, an, tx⟩ := p
  exact h c s d hd l an tx

theorem understood_of_checks : ∀ p : EventProperties,
    (p.legacy = true → legacyEventTypes.contains (p.raw - 0x10) = true) →
    (p.legacy = false → ¬ (p.connectable = true ∧ p.scannable = true)) →
    (p.legacy = false → ¬ (p.connectable = true ∧ p.directed = true ∧ p.highDutyCycle = true)) →
    Understood p := by
  apply forall_properties
  intro c s d hd l an tx
  unfold Understood
  cases l
  · intro _ h2 h3; exact ⟨fun h => (by cases h), fun _ => ⟨h2 rfl, h3 rfl⟩⟩
  · intro h1 _ _
    refine ⟨fun _ => ?_, fun h => (by cases h)⟩
    have h1 := h1 rfl
    revert c s d hd an tx
    decide +kernel

theorem understood_of_ok {a : ExtAdv} (h : AdvOk a) : Understood a.properties :=
  understood_of_checks _ h.legacyTable h.extended1 h.extended2

theorem legacyPduType_of_table : ∀ p : EventProperties,
    (p.legacy = true → legacyEventTypes.contains (p.raw - 0x10) = true) → p.legacy = true →
    (legacyPduType p.raw).isSome = true ∧
    (p.directed = true ↔ legacyPduType p.raw = some .advDirectIndHigh ∨
      legacyPduType p.raw = some .advDirectIndLow) := by
  apply forall_properties
  decide +kernel

theorem maxData_eq : ∀ p : EventProperties, p.maxData = dataLimit p := by
  apply forall_properties
  decide +kernel

theorem maxScanResponse_eq : ∀ p : EventProperties, p.maxScanResponse = scanResponseLimit p := by
  apply forall_properties
  decide +kernel

/-- What makes the data of a set that is being enabled fit. -/
theorem maxData_bound : ∀ p : EventProperties, (p.canHaveData = false → p.maxData = 0) ∧
    (p.canHaveData = true → p.legacy = true → p.maxData = 31) ∧
    (p.canHaveData = true → p.legacy = false → p.connectable = false → p.maxData = 1650) := by
  apply forall_properties
  decide +kernel

/-! ### Commands -/

theorem setAdvertisingSetRandomAddress_ok {cfg : Config} {s : State} {g : Ghost} (h : UInt8) (x : Address)
    (hs : AdvsOk cfg s.extAdv g) : AdvsOk cfg (setAdvertisingSetRandomAddress s h x).1.extAdv g := by
  unfold setAdvertisingSetRandomAddress
  split
  · exact hs
  · rename_i a hf
    rcases checked_cases _ s _ with ⟨hc, hr⟩ | ⟨hc, hr⟩ <;> rw [hr]
    · exact hs.set' hf (fun ha => ⟨by cases ha; constructor <;> assumption, rfl, rfl, rfl, rfl, rfl, rfl⟩)
    · exact hs

theorem setPeriodicParameters_ok {cfg : Config} {s : State} {g : Ghost} (h : UInt8) (i j : Nat)
    (hs : AdvsOk cfg s.extAdv g) : AdvsOk cfg (setPeriodicParameters s h i j).1.extAdv g := by
  unfold setPeriodicParameters
  split
  · exact hs
  · rename_i a hf
    rcases checked_cases _ s _ with ⟨hc, hr⟩ | ⟨hc, hr⟩ <;> rw [hr]
    · simp only [firstError_cons, ne_eq, reduceCtorEq, not_false_eq_true, firstError_nil,
        decide_eq_false_iff_not] at hc
      refine hs.set' hf (fun ha => ⟨?_, rfl, rfl, rfl, rfl, rfl, rfl⟩)
      have hj : j ≥ 6 := by omega
      exact { ha with
        periodic := fun he => ⟨(ha.periodic he).1, (ha.periodic he).2.1, hj⟩
        period := Or.inr hj }
    · exact hs

theorem setPeriodicEnable_ok {cfg : Config} {s : State} {g : Ghost} (now : Nat) (en adi : Bool) (h : UInt8)
    (hs : AdvsOk cfg s.extAdv g) : AdvsOk cfg (setPeriodicEnable cfg now s en adi h).1.extAdv g := by
  unfold setPeriodicEnable
  split
  · exact hs
  · rename_i a hf
    split
    · refine hs.set' hf (fun ha => ⟨?_, rfl, rfl, rfl, rfl, rfl, rfl⟩)
      exact { ha with latch := fun h => h, periodic := fun h => by cases h }
    · rcases checked_cases _ s _ with ⟨hc, hr⟩ | ⟨hc, hr⟩ <;> rw [hr]
      · simp only [firstError_cons, ne_eq, reduceCtorEq, not_false_eq_true, firstError_nil,
          decide_eq_false_iff_not] at hc
        refine hs.set' hf (fun ha => ⟨?_, rfl, rfl, rfl, rfl, rfl, rfl⟩)
        refine { ha with latch := fun _ => rfl, periodic := fun _ => ⟨hc.2.2.2.1, hc.1, ?_⟩ }
        have h2 : a.periodicInterval ≠ 0 := by simpa using hc.2.1
        rcases ha.period with h | h
        · exact absurd h h2
        · exact h
      · exact hs

theorem applyExtParams_ok {a : ExtAdv} {p : ExtParams} (ha : AdvOk a ∨ a = {})
    (hc : firstError (extParamChecks a p) = .success) : AdvOk (applyExtParams a p) := by
  simp only [extParamChecks, firstError_cons, ne_eq, reduceCtorEq, not_false_eq_true, firstError_nil,
    decide_eq_false_iff_not, Bool.and_eq_false_iff, Bool.not_eq_false', Bool.or_eq_false_iff,
    List.isEmpty_iff, bne_eq_false_iff_eq, beq_eq_false_iff_ne] at hc
  obtain ⟨c1, c2, c3, c4, c5, c6, c7, c8, c9, c10, c11, c12, c13, c14, -⟩ := hc
  have hpre : a.scanResponse.length ≤ 1650 ∧ a.periodicData.length ≤ 1650 ∧
      (a.periodicLatch = true → a.periodicEnable = true) ∧
      (a.periodicEnable = true → a.partialPeriodicData = false ∧ a.periodicInterval ≥ 6) ∧
      (a.periodicInterval = 0 ∨ a.periodicInterval ≥ 6) := by
    rcases ha with ha | rfl
    · exact ⟨ha.scanMax, ha.periodicMax, ha.latch, fun h => (ha.periodic h).2, ha.period⟩
    · simp
  obtain ⟨p1, p2, p3, p4, p5⟩ := hpre
  constructor <;> simp only [applyExtParams]
  · intro hl; rcases c2 with h | h
    · rw [hl] at h; cases h
    · exact h
  · rintro hl ⟨h1, h2⟩
    rcases c6 with (h | h) | h
    · rw [hl] at h; cases h
    · rw [h1] at h; cases h
    · rw [h2] at h; cases h
  · rintro hl ⟨h1, h2, h3⟩
    rcases c7 with ((h | h) | h) | h
    · rw [hl] at h; cases h
    · rw [h1] at h; cases h
    · rw [h2] at h; cases h
    · rw [h3] at h; cases h
  · intro h; rcases c3 with h' | h'
    · rw [h] at h'; cases h'
    · exact h'
  · intro h; rcases c4 with h' | h'
    · rw [h] at h'; cases h'
    · exact h'
  · intro h; rcases c5 with h' | h'
    · rw [h] at h'; cases h'
    · simp only [maxLegacyPdu] at h'; omega
  · exact p1
  · exact p2
  · intro h; rw [c1] at h; cases h
  · intro h; rw [c1] at h; cases h
  · exact p3
  · intro h
    refine ⟨?_, p4 h⟩
    rcases c13 with h' | h'
    · rw [h] at h'; cases h'
    · simp [EventProperties.notPeriodic, h']
  · exact p5
  · omega
  · simpa using c10

theorem setExtAdvertisingParameters_ok {cfg : Config} {s : State} {g : Ghost} (h : UInt8) (p : ExtParams)
    (hs : AdvsOk cfg s.extAdv g) : AdvsOk cfg (setExtAdvertisingParameters cfg s h p).1.extAdv g := by
  simp only [setExtAdvertisingParameters, withExtended]
  split
  · exact hs
  · rcases checked_cases ((_, _) :: extParamChecks _ p) { s with extendedInUse := true } _ with ⟨hc, hr⟩ | ⟨hc, hr⟩ <;> rw [hr]
    · rw [firstError_cons (by simp)] at hc
      obtain ⟨c0, hc⟩ := hc
      cases hf : mapFind s.extAdv h with
      | none =>
        simp only [hf, Option.getD_none, Option.isNone_none, Bool.true_and, decide_eq_false_iff_not] at hc c0 ⊢
        have hk := mapFind_none.1 hf
        refine ⟨mapSet_nodup hs.keys _ _, ?_, fun k => ?_⟩
        · have := congrArg List.length (mapSet_keys s.extAdv h (applyExtParams {} p))
          rw [if_neg hk] at this
          simp only [List.length_map, List.length_append, List.length_cons, List.length_nil] at this
          omega
        · rw [mapFind_mapSet]
          have he := hs.entries h
          by_cases hk : h = k
          · subst hk
            rw [hf] at he
            rw [if_pos rfl]
            obtain ⟨e1, e2, e3⟩ := he
            refine ⟨applyExtParams_ok (Or.inr rfl) hc, ?_⟩
            rw [e1, e2, e3]
            exact ⟨⟨rfl, rfl⟩, ⟨rfl, rfl⟩, ⟨rfl, rfl⟩⟩
          · rw [if_neg hk]; exact hs.entries k
      | some a =>
        simp only [hf, Option.getD_some] at hc ⊢
        exact hs.set' hf (fun ha => ⟨applyExtParams_ok (Or.inl ha) hc, rfl, rfl, rfl, rfl, rfl, rfl⟩)
    · exact hs

/-! ### Data commands -/

theorem applyOperation_hist {op : Operation} {old new : List UInt8} {part : Bool} {hist : Hist}
    {data : List UInt8} {part' : Bool} (ho : old = assembled hist ∧ part = incomplete hist)
    (hu : op = .unchangedData → new = [])
    (h : applyOperation op old new part = some (data, part')) :
    data = assembled ((op, new) :: hist) ∧ part' = incomplete ((op, new) :: hist) := by
  obtain ⟨rfl, rfl⟩ := ho
  cases op <;> simp only [applyOperation, Option.some.injEq, Prod.mk.injEq, reduceCtorEq] at h
  all_goals obtain ⟨rfl, rfl⟩ := h
  all_goals first
    | exact ⟨rfl, rfl⟩
    | (rw [hu rfl]; simp [assembled, incomplete, Operation.restarts])

theorem updateHist_same (f : UInt8 → Hist) (h : UInt8) (g : Hist → Hist) : updateHist f h g h = g (f h) := by
  simp [updateHist]

theorem updateHist_other (f : UInt8 → Hist) (h : UInt8) (g : Hist → Hist) {k : UInt8} (hk : k ≠ h) :
    updateHist f h g k = f k := by
  simp [updateHist, hk]

theorem recordData_success (op : Operation) (d : List UInt8) (hist : Hist) :
    recordData op d (some .success) hist = (op, d) :: hist := rfl

/-- A failure other than the two discarding ones records nothing. -/
theorem record_failed {hist : UInt8 → Hist} {h : UInt8} {op : Operation} {d : List UInt8} {e : Status}
    (h1 : e ≠ .success) (h2 : discards (some e) = false) :
    updateHist hist h (recordData op d (some e)) = hist := by
  funext k
  simp only [updateHist, recordData]
  split
  · rw [if_neg (by simpa using h1), h2]; rfl
  · rfl

theorem firstError_mem {cs : List (Bool × Status)} (h : firstError cs ≠ .success) :
    firstError cs ∈ cs.map (·.2) := by
  induction cs with
  | nil => exact absurd rfl h
  | cons c cs ih =>
    obtain ⟨b, e⟩ := c
    cases b
    · exact List.mem_cons_of_mem _ (ih h)
    · exact List.mem_cons_self

theorem setExtAdvertisingData_ok {cfg : Config} {s : State} {g : Ghost} (h : UInt8) (op : Operation)
    (d : List UInt8) (hs : AdvsOk cfg s.extAdv g) :
    AdvsOk cfg (setExtAdvertisingData cfg s h op d).1.extAdv
      (record g (.cmd (.setExtAdvertisingData h op d)) (some (setExtAdvertisingData cfg s h op d).2)) := by
  have hfail : ∀ e, e ≠ .success → discards (some e) = false →
      record g (.cmd (.setExtAdvertisingData h op d)) (some e) = g := by
    intro e h1 h2
    simp only [record]
    rw [record_failed h1 h2]
  simp only [setExtAdvertisingData, withExtended]
  split
  · rw [hfail _ (by simp) rfl]; exact hs
  · split
    · rw [hfail _ (by simp) rfl]; exact hs
    · rename_i a hf
      simp only [checkedThen]
      split
      · rename_i hc
        simp only [firstError_cons, ne_eq, reduceCtorEq, not_false_eq_true, firstError_nil,
          decide_eq_false_iff_not, Bool.and_eq_false_iff, Bool.not_eq_false', Bool.or_eq_false_iff,
          List.isEmpty_iff, bne_eq_false_iff_eq, beq_eq_false_iff_ne] at hc
        obtain ⟨c1, c2, c3, c4, c5, -⟩ := hc
        split
        · rw [hfail _ (by simp) rfl]; exact hs
        · rename_i data part hop
          -- the histories after the three outcomes
          have hdisc : AdvOk a → HistOk a (g.data h) (g.scan h) (g.periodic h) →
              AdvOk { a with data := [], partialData := false } ∧
              HistOk { a with data := [], partialData := false } [] (g.scan h) (g.periodic h) := by
            intro ha hh
            refine ⟨{ ha with noData := fun _ => rfl, legacyLen := fun hl => ⟨by simp, (ha.legacyLen hl).2⟩, enabledData := fun _ => by simp, enabledWhole := fun he => ⟨rfl, (ha.enabledWhole he).2⟩ }, ?_⟩
            exact ⟨⟨rfl, rfl⟩, hh.scan, hh.periodic⟩
          split
          · refine hs.set hf (fun k hk => ⟨updateHist_other _ _ _ hk, rfl, rfl⟩) ?_
            simp only [record, updateHist_same, recordData]
            exact hdisc
          · split
            · refine hs.set hf (fun k hk => ⟨updateHist_other _ _ _ hk, rfl, rfl⟩) ?_
              simp only [record, updateHist_same, recordData]
              exact hdisc
            · rename_i hlen hmax
              refine hs.set hf (fun k hk => ⟨updateHist_other _ _ _ hk, rfl, rfl⟩) ?_
              intro ha hh
              simp only [record, updateHist_same, recordData_success]
              have hu : op = .unchangedData → d = [] := by
                rintro rfl
                rcases c3 with h | h
                · simp at h
                · exact h.2
              have hd := applyOperation_hist hh.data hu hop
              refine ⟨{ ha with noData := ?_, legacyLen := ?_, enabledData := ?_, enabledWhole := ?_ }, ⟨hd, hh.scan, hh.periodic⟩⟩
              · intro h; simp only at h; rw [c1] at h; cases h
              · intro hl
                refine ⟨?_, (ha.legacyLen hl).2⟩
                simp only at hl ⊢
                rcases c2 with h | h
                · rw [hl] at h; cases h
                · obtain ⟨rfl, h⟩ := h
                  simp only [applyOperation, Option.some.injEq, Prod.mk.injEq] at hop
                  rw [← hop.1]; simp only [maxLegacyPdu] at h; omega
              · intro he
                simp only at he ⊢
                rw [not_and] at hmax
                have := hmax he
                omega
              · intro he
                simp only at he
                refine ⟨?_, (ha.enabledWhole he).2⟩
                have hp := (ha.enabledWhole he).1
                rcases c5 with (h | h) | h
                · rw [he] at h; cases h
                · subst h; simp only [applyOperation, Option.some.injEq, Prod.mk.injEq] at hop; exact hop.2.symm
                · subst h; simp only [applyOperation, Option.some.injEq, Prod.mk.injEq] at hop
                  show part = false
                  rw [← hop.2]; exact hp
      · rename_i hc
        rw [hfail _ hc]
        · exact hs
        · have := firstError_mem hc
          simp only [List.map_cons, List.map_nil, List.mem_cons, List.not_mem_nil, or_false] at this
          rcases this with h | h | h | h | h <;> rw [h] <;> rfl

theorem setExtScanResponseData_ok {cfg : Config} {s : State} {g : Ghost} (h : UInt8) (op : Operation)
    (d : List UInt8) (hs : AdvsOk cfg s.extAdv g) :
    AdvsOk cfg (setExtScanResponseData cfg s h op d).1.extAdv
      (record g (.cmd (.setExtScanResponseData h op d)) (some (setExtScanResponseData cfg s h op d).2)) := by
  have hfail : ∀ e, e ≠ .success → discards (some e) = false →
      record g (.cmd (.setExtScanResponseData h op d)) (some e) = g := by
    intro e h1 h2
    simp only [record]
    rw [record_failed h1 h2]
  simp only [setExtScanResponseData, withExtended]
  split
  · rw [hfail _ (by simp) rfl]; exact hs
  · split
    · rw [hfail _ (by simp) rfl]; exact hs
    · rename_i a hf
      simp only [checkedThen]
      split
      · rename_i hc
        simp only [firstError_cons, ne_eq, reduceCtorEq, not_false_eq_true, firstError_nil,
          decide_eq_false_iff_not, Bool.and_eq_false_iff, Bool.not_eq_false', Bool.or_eq_false_iff,
          List.isEmpty_iff, bne_eq_false_iff_eq, beq_eq_false_iff_ne] at hc
        obtain ⟨c1, c2, c3, c4, c5, c6, -⟩ := hc
        split
        · rw [hfail _ (by simp) rfl]; exact hs
        · rename_i data part hop
          have hdisc : AdvOk a → HistOk a (g.data h) (g.scan h) (g.periodic h) →
              AdvOk { a with scanResponse := [], partialScanResponse := false } ∧
              HistOk { a with scanResponse := [], partialScanResponse := false } (g.data h) [] (g.periodic h) := by
            intro ha hh
            refine ⟨{ ha with noScan := fun _ => rfl, legacyLen := fun hl => ⟨(ha.legacyLen hl).1, by simp⟩, scanMax := by simp, enabledWhole := fun he => ⟨(ha.enabledWhole he).1, rfl⟩ }, ?_⟩
            exact ⟨hh.data, ⟨rfl, rfl⟩, hh.periodic⟩
          split
          · refine hs.set hf (fun k hk => ⟨rfl, updateHist_other _ _ _ hk, rfl⟩) ?_
            simp only [record, updateHist_same, recordData]
            exact hdisc
          · split
            · refine hs.set hf (fun k hk => ⟨rfl, updateHist_other _ _ _ hk, rfl⟩) ?_
              simp only [record, updateHist_same, recordData]
              exact hdisc
            · rename_i hlen hmax
              refine hs.set hf (fun k hk => ⟨rfl, updateHist_other _ _ _ hk, rfl⟩) ?_
              intro ha hh
              simp only [record, updateHist_same, recordData_success]
              have hd := applyOperation_hist hh.scan (fun h => absurd h c6) hop
              have hno : a.properties.scannable = false → data = [] := by
                intro hsc
                rcases c1 with h | h
                · rw [hsc] at h; cases h
                · rcases c3 with h' | h'
                  · subst h'; simp only [applyOperation, Option.some.injEq, Prod.mk.injEq] at hop
                    rw [← hop.1]; exact h
                  · rw [h] at h'; cases h'
              refine ⟨{ ha with noScan := hno, legacyLen := ?_, scanMax := ?_, enabledWhole := ?_ }, ⟨hh.data, hd, hh.periodic⟩⟩
              · intro hl
                refine ⟨(ha.legacyLen hl).1, ?_⟩
                simp only at hl ⊢
                rcases c2 with (h | h) | h
                · rw [hno h]; simp
                · rw [hl] at h; cases h
                · obtain ⟨rfl, h⟩ := h
                  simp only [applyOperation, Option.some.injEq, Prod.mk.injEq] at hop
                  rw [← hop.1]; simp only [maxLegacyPdu] at h; omega
              · simp only [maxExtendedPdu] at hmax
                show data.length ≤ 1650
                omega
              · intro he
                simp only at he
                refine ⟨(ha.enabledWhole he).1, ?_⟩
                rcases c4 with h | h
                · rw [he] at h; cases h
                · subst h; simp only [applyOperation, Option.some.injEq, Prod.mk.injEq] at hop; exact hop.2.symm
      · rename_i hc
        rw [hfail _ hc]
        · exact hs
        · have := firstError_mem hc
          simp only [List.map_cons, List.map_nil, List.mem_cons, List.not_mem_nil, or_false] at this
          rcases this with h | h | h | h | h | h <;> rw [h] <;> rfl

theorem setPeriodicData_ok {cfg : Config} {s : State} {g : Ghost} (h : UInt8) (op : Operation)
    (d : List UInt8) (hs : AdvsOk cfg s.extAdv g) :
    AdvsOk cfg (setPeriodicData cfg s h op d).1.extAdv
      (record g (.cmd (.setPeriodicData h op d)) (some (setPeriodicData cfg s h op d).2)) := by
  have hfail : ∀ e, e ≠ .success → discards (some e) = false →
      record g (.cmd (.setPeriodicData h op d)) (some e) = g := by
    intro e h1 h2
    simp only [record]
    rw [record_failed h1 h2]
  simp only [setPeriodicData]
  split
  · rw [hfail _ (by simp) rfl]; exact hs
  · rename_i a hf
    simp only [checkedThen]
    split
    · rename_i hc
      simp only [firstError_cons, ne_eq, reduceCtorEq, not_false_eq_true, firstError_nil,
        decide_eq_false_iff_not, Bool.and_eq_false_iff, Bool.not_eq_false', Bool.or_eq_false_iff,
        List.isEmpty_iff, bne_eq_false_iff_eq, beq_eq_false_iff_ne] at hc
      obtain ⟨c1, c2, c3, c4, -⟩ := hc
      split
      · rw [hfail _ (by simp) rfl]; exact hs
      · rename_i data part hop
        have hdisc : AdvOk a → HistOk a (g.data h) (g.scan h) (g.periodic h) →
            AdvOk { a with periodicData := [], partialPeriodicData := false } ∧
            HistOk { a with periodicData := [], partialPeriodicData := false } (g.data h) (g.scan h) [] := by
          intro ha hh
          refine ⟨{ ha with periodicMax := by simp, periodic := fun he => ⟨(ha.periodic he).1, rfl, (ha.periodic he).2.2⟩ }, ?_⟩
          exact ⟨hh.data, hh.scan, ⟨rfl, rfl⟩⟩
        split
        · refine hs.set hf (fun k hk => ⟨rfl, rfl, updateHist_other _ _ _ hk⟩) ?_
          simp only [record, updateHist_same, recordData]
          exact hdisc
        · split
          · refine hs.set hf (fun k hk => ⟨rfl, rfl, updateHist_other _ _ _ hk⟩) ?_
            simp only [record, updateHist_same, recordData]
            exact hdisc
          · rename_i hlen hmax
            refine hs.set hf (fun k hk => ⟨rfl, rfl, updateHist_other _ _ _ hk⟩) ?_
            intro ha hh
            simp only [record, updateHist_same, recordData_success]
            have hu : op = .unchangedData → d = [] := by
              rintro rfl
              rcases c4 with h | h
              · simp at h
              · exact h.2
            have hd := applyOperation_hist hh.periodic hu hop
            refine ⟨{ ha with periodicMax := ?_, periodic := ?_ }, ⟨hh.data, hh.scan, hd⟩⟩
            · simp only [maxPeriodicData, maxExtendedPdu] at hmax
              show data.length ≤ 1650
              omega
            · intro he
              simp only at he
              refine ⟨(ha.periodic he).1, ?_, (ha.periodic he).2.2⟩
              have hp := (ha.periodic he).2.1
              rcases c2 with (h | h) | h
              · rw [he] at h; cases h
              · subst h; simp only [applyOperation, Option.some.injEq, Prod.mk.injEq] at hop; exact hop.2.symm
              · subst h; simp only [applyOperation, Option.some.injEq, Prod.mk.injEq] at hop
                show part = false
                rw [← hop.2]; exact hp
    · rename_i hc
      rw [hfail _ hc]
      · exact hs
      · have := firstError_mem hc
        simp only [List.map_cons, List.map_nil, List.mem_cons, List.not_mem_nil, or_false] at this
        rcases this with h | h | h | h <;> rw [h] <;> rfl

/-! ### Enabling -/

/-- What enabling checks about one set (apart from the addresses). -/
def Enablable (a : ExtAdv) : Prop :=
  a.partialData = false ∧ a.partialScanResponse = false ∧
  (a.properties.legacy = false → a.properties.connectable = true → a.data.length ≤ a.properties.maxData) ∧
  (a.properties.legacy = false → a.data.length ≤ 1650)

theorem enablable_of_checks {a : ExtAdv} {set : EnabledSet}
    (hc : firstError (extEnableChecks a set) = .success) : Enablable a := by
  simp only [extEnableChecks, firstError_cons, ne_eq, reduceCtorEq, not_false_eq_true, firstError_nil,
    decide_eq_false_iff_not, Bool.and_eq_false_iff, Bool.not_eq_false', Bool.or_eq_false_iff] at hc
  obtain ⟨-, c2, -, c4, c5, -⟩ := hc
  refine ⟨c2.1, c2.2, ?_, ?_⟩
  · intro hl hcn
    rcases c4 with (h | h) | h
    · rw [hl] at h; cases h
    · rw [hcn] at h; cases h
    · omega
  · intro hl
    rcases c5 with h | h
    · rw [hl] at h; cases h
    · simp only [maxExtendedPdu] at h; omega

theorem enableSet_ok {now : Nat} {a : ExtAdv} {set : EnabledSet} (ha : AdvOk a) (he : Enablable a) :
    AdvOk (enableSet now a set) := by
  obtain ⟨e1, e2, e3, e4⟩ := he
  unfold enableSet
  refine { ha with enabledData := fun _ => ?_, enabledWhole := fun _ => ⟨e1, e2⟩, latch := fun h => h }
  simp only
  obtain ⟨m1, m2, m3⟩ := maxData_bound a.properties
  cases hd : a.properties.canHaveData
  · rw [ha.noData hd]; simp
  · cases hl : a.properties.legacy
    · cases hcn : a.properties.connectable
      · rw [m3 hd hl hcn]; exact e4 hl
      · exact e3 hl hcn
    · rw [m2 hd hl]; exact (ha.legacyLen hl).1

theorem validateSets_ok (cfg : Config) (rnd : Nat → Irk → Address) (g : Ghost) (sets : List EnabledSet) :
    ∀ (i : Nat) (s : State), AdvsOk cfg s.extAdv g →
      (∀ set ∈ sets, (mapFind s.extAdv set.handle).isSome = true) →
      AdvsOk cfg (validateSets cfg rnd i sets s).1.extAdv g ∧
      (∀ h, (mapFind (validateSets cfg rnd i sets s).1.extAdv h).isSome = (mapFind s.extAdv h).isSome) ∧
      (∀ h a', mapFind (validateSets cfg rnd i sets s).1.extAdv h = some a' →
        ∃ a, mapFind s.extAdv h = some a ∧ (Enablable a → Enablable a')) ∧
      ((validateSets cfg rnd i sets s).2 = .success → ∀ set ∈ sets, ∀ a,
        mapFind (validateSets cfg rnd i sets s).1.extAdv set.handle = some a → Enablable a) := by
  induction sets with
  | nil => intro i s hs _; exact ⟨hs, fun _ => rfl, fun h a' hf => ⟨a', hf, id⟩, fun _ set hset => absurd hset List.not_mem_nil⟩
  | cons set sets ih =>
    intro i s hs hall
    obtain ⟨a, hf⟩ := Option.isSome_iff_exists.1 (hall set List.mem_cons_self)
    simp only [validateSets, checkedThen, hf, Option.getD_some]
    split
    · rename_i hc
      split
      · exact ⟨hs, fun _ => rfl, fun h a' hf => ⟨a', hf, id⟩, fun h => by cases h⟩
      · rename_i addr _
        generalize htgt : (if a.properties.directed = true then _ else a.targetAddress) = tgt
        generalize hrl : (generateRpa (rnd (2 * i)) _ _ s.resolvingList).1 = rl
        have hset := hs.set' (a' := { a with advertisingAddress := addr, targetAddress := tgt }) hf
          (fun ha => ⟨by cases ha; constructor <;> assumption, rfl, rfl, rfl, rfl, rfl, rfl⟩)
        have hfind : ∀ h, (mapFind (mapSet s.extAdv set.handle { a with advertisingAddress := addr, targetAddress := tgt }) h).isSome
            = (mapFind s.extAdv h).isSome := by
          intro h
          rw [mapFind_mapSet]
          split
          · rename_i h; subst h; rw [hf]; rfl
          · rfl
        obtain ⟨i1, i2, i3, i4⟩ := ih (i + 1) { s with resolvingList := rl, extAdv := mapSet s.extAdv set.handle { a with advertisingAddress := addr, targetAddress := tgt } } hset
          (fun set' hs' => by rw [hfind]; exact hall set' (List.mem_cons_of_mem _ hs'))
        refine ⟨i1, fun h => by rw [i2, hfind], ?_, ?_⟩
        · intro h a' ha'
          obtain ⟨b, hb, hbe⟩ := i3 h a' ha'
          simp only [mapFind_mapSet] at hb
          split at hb
          · rename_i h; subst h; cases hb; exact ⟨a, hf, fun he => hbe he⟩
          · exact ⟨b, hb, hbe⟩
        · intro hok set' hset' b hb
          rcases List.mem_cons.1 hset' with rfl | hset'
          · obtain ⟨b', hb', hbe⟩ := i3 _ _ hb
            simp only [mapFind_mapSet, if_pos] at hb'
            cases hb'
            exact hbe (enablable_of_checks hc)
          · exact i4 hok set' hset' b hb
    · rename_i hc
      exact ⟨hs, fun _ => rfl, fun h a' hf => ⟨a', hf, id⟩, fun h => absurd h hc⟩

theorem checkHandles_ok {m : List (UInt8 × ExtAdv)} (sets : List EnabledSet) : ∀ (used : List UInt8),
    checkHandles m used sets = .ok → ∀ set ∈ sets, (mapFind m set.handle).isSome = true := by
  induction sets with
  | nil => intro used _ set h; exact absurd h List.not_mem_nil
  | cons set sets ih =>
    intro used h set' hset'
    simp only [checkHandles] at h
    split at h
    · cases h
    · split at h
      · cases h
      · split at h
        · cases h
        · rename_i hn
          rcases List.mem_cons.1 hset' with rfl | hset'
          · cases hf : mapFind m set'.handle with
            | none => rw [hf] at hn; exact absurd rfl hn
            | some a => rfl
          · exact ih _ h set' hset'

theorem enableSets_ok (cfg : Config) (now : Nat) (g : Ghost) (sets : List EnabledSet) :
    ∀ m : List (UInt8 × ExtAdv), AdvsOk cfg m g →
      (∀ set ∈ sets, ∃ a, mapFind m set.handle = some a ∧ Enablable a) →
      AdvsOk cfg (enableSets now sets m) g := by
  induction sets with
  | nil => intro m hm _; exact hm
  | cons set sets ih =>
    intro m hm hall
    obtain ⟨a, hf, hen⟩ := hall set List.mem_cons_self
    simp only [enableSets, hf, Option.getD_some]
    refine ih _ (hm.set' hf (fun ha => ⟨enableSet_ok ha hen, rfl, rfl, rfl, rfl, rfl, rfl⟩)) ?_
    intro set' hset'
    rw [mapFind_mapSet]
    split
    · exact ⟨_, rfl, hen⟩
    · exact hall set' (List.mem_cons_of_mem _ hset')

theorem disable_ok {a : ExtAdv} (ha : AdvOk a) : AdvOk { a with enable := false } :=
  { ha with enabledData := fun h => (by cases h), enabledWhole := fun h => (by cases h) }

theorem disableSets_ok (cfg : Config) (g : Ghost) (sets : List EnabledSet) :
    ∀ m : List (UInt8 × ExtAdv), AdvsOk cfg m g →
      (∀ set ∈ sets, (mapFind m set.handle).isSome = true) → AdvsOk cfg (disableSets sets m) g := by
  induction sets with
  | nil => intro m hm _; exact hm
  | cons set sets ih =>
    intro m hm hall
    obtain ⟨a, hf⟩ := Option.isSome_iff_exists.1 (hall set List.mem_cons_self)
    simp only [disableSets, hf, Option.getD_some]
    refine ih _ (hm.set' hf (fun ha => ⟨disable_ok ha, rfl, rfl, rfl, rfl, rfl, rfl⟩)) ?_
    intro set' hset'
    rw [mapFind_mapSet]
    split
    · rfl
    · exact hall set' (List.mem_cons_of_mem _ hset')

theorem mapFind_map {α : Type} (f : α → α) (m : List (UInt8 × α)) (h : UInt8) :
    mapFind (m.map (fun e => (e.1, f e.2))) h = (mapFind m h).map f := by
  induction m with
  | nil => rfl
  | cons e m ih =>
    obtain ⟨k, a⟩ := e
    rw [List.map_cons, mapFind_cons, mapFind_cons, ih]
    split <;> rfl

theorem setExtAdvertisingEnable_ok {cfg : Config} {now : Nat} {rnd : Nat → Irk → Address} {s s' : State}
    {enable : Bool} {sets : List EnabledSet} {e : Status} {g : Ghost}
    (h : setExtAdvertisingEnable cfg now rnd s enable sets = some (s', e)) (hs : AdvsOk cfg s.extAdv g) :
    AdvsOk cfg s'.extAdv g := by
  simp only [setExtAdvertisingEnable] at h
  split at h
  · cases h; exact hs
  · split at h
    · cases h
    · cases h; exact hs
    · rename_i hch
      have hall := checkHandles_ok sets [] hch
      split at h
      · cases h
        refine ⟨?_, ?_, fun k => ?_⟩
        · simpa [List.map_map, Function.comp_def] using hs.keys
        · simpa using hs.size
        · have he := hs.entries k
          simp only
          rw [mapFind_map (fun a : ExtAdv => { a with enable := false })]
          cases hf : mapFind s.extAdv k with
          | none => rw [hf] at he; exact he
          | some a =>
            rw [hf] at he
            exact ⟨disable_ok he.1, ⟨he.2.data, he.2.scan, he.2.periodic⟩⟩
      · split at h
        · cases h; exact hs
        · split at h
          · cases h; exact disableSets_ok cfg g sets _ hs hall
          · obtain ⟨v1, v2, -, v4⟩ := validateSets_ok cfg rnd g sets 0 { s with extendedInUse := true } hs hall
            split at h
            · rename_i hok
              cases h
              refine enableSets_ok cfg now g sets _ v1 (fun set hset => ?_)
              have := hall set hset
              rw [← v2] at this
              obtain ⟨a, hf⟩ := Option.isSome_iff_exists.1 this
              exact ⟨a, hf, v4 hok set hset a hf⟩
            · cases h; exact v1

theorem removeAdvertisingSet_ok {cfg : Config} {s : State} {g : Ghost} (h : UInt8)
    (hs : AdvsOk cfg s.extAdv g) :
    AdvsOk cfg (removeAdvertisingSet s h).1.extAdv
      (record g (.cmd (.removeAdvertisingSet h)) (some (removeAdvertisingSet s h).2)) := by
  unfold removeAdvertisingSet
  split
  · exact hs
  · rcases checked_cases _ s _ with ⟨hc, hr⟩ | ⟨hc, hr⟩ <;> rw [hr]
    · refine ⟨hs.keys.sublist (mapErase_keys_sublist _ _), ?_, fun k => ?_⟩
      · exact Nat.le_trans (List.length_filter_le _ _) hs.size
      · simp only [mapFind_mapErase, record, if_pos]
        by_cases hk : h = k
        · subst hk; simp [updateHist, EntryOk]
        · rw [if_neg hk, updateHist_other _ _ _ (fun e => hk e.symm),
            updateHist_other _ _ _ (fun e => hk e.symm), updateHist_other _ _ _ (fun e => hk e.symm)]
          exact hs.entries k
    · simp only [record]
      rw [if_neg (by simpa using hc)]; exact hs

theorem clearAdvertisingSets_ok {cfg : Config} {s : State} {g : Ghost}
    (hs : AdvsOk cfg s.extAdv g) :
    AdvsOk cfg (clearAdvertisingSets s).1.extAdv
      (record g (.cmd .clearAdvertisingSets) (some (clearAdvertisingSets s).2)) := by
  unfold clearAdvertisingSets
  rcases checked_cases _ s _ with ⟨hc, hr⟩ | ⟨hc, hr⟩ <;> rw [hr]
  · exact advsOk_nil cfg
  · simp only [record]
    rw [if_neg (by simpa using hc)]; exact hs

/-! ### Tick -/

/-- The tick changes an advertising set only in these fields. -/
theorem tickExt_frame {now : Nat} {h : UInt8} {a : ExtAdv} {r : ExtAdv × List AdvOut}
    (hr : tickExt now h a = some r) :
    ∃ en ne nc np, r.1 = { a with enable := en, nextEvent := ne, numCompletedEvents := nc, nextPeriodicEvent := np } ∧
      (en = true → a.enable = true) := by
  have h1 : ∃ en, (tickExtTimeout now h a).1 = { a with enable := en } ∧ (en = true → a.enable = true) := by
    unfold tickExtTimeout
    simp only
    repeat' split
    all_goals first
      | exact ⟨false, rfl, by simp⟩
      | exact ⟨a.enable, rfl, id⟩
  obtain ⟨en, h1, hen⟩ := h1
  simp only [tickExt, h1] at hr
  split at hr
  · cases hr
  · rename_i r2 h2
    cases hr
    have h3 : ∃ ne nc, r2.1 = { a with enable := en, nextEvent := ne, numCompletedEvents := nc } := by
      simp only [tickExtEvent] at h2
      split at h2
      · split at h2
        · split at h2
          · cases h2
          · cases h2; exact ⟨_, _, rfl⟩
        · cases h2; exact ⟨_, _, rfl⟩
      · cases h2; exact ⟨_, _, rfl⟩
    obtain ⟨ne, nc, h3⟩ := h3
    refine ⟨en, ne, nc, ?_⟩
    simp only [tickPeriodic, h3]
    split
    · exact ⟨_, rfl, hen⟩
    · exact ⟨_, rfl, hen⟩

theorem tickExt_ok {now : Nat} {h : UInt8} {a : ExtAdv} {r : ExtAdv × List AdvOut}
    (hr : tickExt now h a = some r) (ha : AdvOk a) : AdvOk r.1 := by
  obtain ⟨en, ne, nc, np, hx, hen⟩ := tickExt_frame hr
  rw [hx]
  exact { ha with enabledData := fun h => ha.enabledData (hen h), enabledWhole := fun h => ha.enabledWhole (hen h) }

theorem tickExt_isSome {now : Nat} {h : UInt8} {a : ExtAdv} (ha : AdvOk a) :
    (tickExt now h a).isSome = true := by
  have h1 : ∃ en, (tickExtTimeout now h a).1 = { a with enable := en } := by
    unfold tickExtTimeout
    simp only
    repeat' split
    all_goals first
      | exact ⟨false, rfl⟩
      | exact ⟨a.enable, rfl⟩
  obtain ⟨en, h1⟩ := h1
  simp only [tickExt, h1]
  have h2 : (tickExtEvent now h { a with enable := en }).isSome = true := by
    simp only [tickExtEvent]
    split
    · split
      · rename_i hl
        have := (legacyPduType_of_table a.properties ha.legacyTable hl).1
        split
        · rename_i hn; rw [hn] at this; cases this
        · rfl
      · rfl
    · rfl
  obtain ⟨r, h2⟩ := Option.isSome_iff_exists.1 h2
  rw [h2]; rfl

theorem tickExtAll_spec {now : Nat} (m : List (UInt8 × ExtAdv)) : ∀ r, tickExtAll now m = some r →
    r.1.map (·.1) = m.map (·.1) ∧
    (∀ h, (mapFind m h = none ∧ mapFind r.1 h = none) ∨
      (∃ a x, mapFind m h = some a ∧ tickExt now h a = some x ∧ mapFind r.1 h = some x.1)) ∧
    (∀ o ∈ r.2, ∃ h a x, (h, a) ∈ m ∧ tickExt now h a = some x ∧ o ∈ x.2) := by
  induction m with
  | nil =>
    intro r hr
    simp only [tickExtAll, Option.some.injEq] at hr
    subst hr
    exact ⟨rfl, fun h => Or.inl ⟨rfl, rfl⟩, fun o ho => absurd ho List.not_mem_nil⟩
  | cons e m ih =>
    obtain ⟨k, a⟩ := e
    intro r hr
    simp only [tickExtAll] at hr
    split at hr
    · cases hr
    · rename_i a' o hx
      split at hr
      · cases hr
      · rename_i m' o' hm
        cases hr
        obtain ⟨i1, i2, i3⟩ := ih _ hm
        refine ⟨by simp only [List.map_cons]; rw [i1], fun h => ?_, fun x hxo => ?_⟩
        · rw [mapFind_cons, mapFind_cons]
          by_cases hk : k = h
          · subst hk; rw [if_pos rfl, if_pos rfl]; exact Or.inr ⟨a, _, rfl, hx, rfl⟩
          · rw [if_neg hk, if_neg hk]; exact i2 h
        · rcases List.mem_append.1 hxo with h | h
          · exact ⟨k, a, _, List.mem_cons_self, hx, h⟩
          · obtain ⟨h', b, y, hb, hy, ho⟩ := i3 x h
            exact ⟨h', b, y, List.mem_cons_of_mem _ hb, hy, ho⟩

theorem tickExtAll_ok {cfg : Config} {g : Ghost} {now : Nat} {m : List (UInt8 × ExtAdv)} {r}
    (hr : tickExtAll now m = some r) (hm : AdvsOk cfg m g) : AdvsOk cfg r.1 g := by
  obtain ⟨h1, h2, -⟩ := tickExtAll_spec m r hr
  refine ⟨by rw [h1]; exact hm.keys, ?_, fun h => ?_⟩
  · have := congrArg List.length h1
    simp only [List.length_map] at this
    rw [this]; exact hm.size
  · have he := hm.entries h
    rcases h2 h with ⟨a1, a2⟩ | ⟨a, x, a1, a2, a3⟩
    · rw [a1] at he; rw [a2]; exact he
    · rw [a1] at he; rw [a3]
      obtain ⟨en, ne, nc, np, hx, -⟩ := tickExt_frame a2
      refine ⟨tickExt_ok a2 he.1, ?_⟩
      rw [hx]
      exact ⟨he.2.data, he.2.scan, he.2.periodic⟩

theorem tickExtAll_isSome {cfg : Config} {g : Ghost} {now : Nat} {m : List (UInt8 × ExtAdv)}
    (hm : AdvsOk cfg m g) : (tickExtAll now m).isSome = true := by
  have hall : ∀ e ∈ m, AdvOk e.2 := by
    rintro ⟨h, a⟩ he
    have := hm.entries h
    rw [mapFind_of_mem hm.keys he] at this
    exact this.1
  clear hm
  induction m with
  | nil => rfl
  | cons e m ih =>
    obtain ⟨k, a⟩ := e
    simp only [tickExtAll]
    obtain ⟨x, hx⟩ := Option.isSome_iff_exists.1 (tickExt_isSome (now := now) (h := k) (hall _ List.mem_cons_self))
    obtain ⟨y, hy⟩ := Option.isSome_iff_exists.1 (ih (fun e he => hall e (List.mem_cons_of_mem _ he)))
    rw [hx, hy]; rfl

/-- What the tick sends for one set. -/
theorem tickExt_out {now : Nat} {h : UInt8} {a : ExtAdv} {r : ExtAdv × List AdvOut} (ha : AdvOk a)
    (hr : tickExt now h a = some r) : ∀ o ∈ r.2,
    (∃ t, o = .legacyPdu (some h) t a.advertisingAddress a.targetAddress a.data ∧ a.enable = true ∧
      a.properties.legacy = true ∧
      (a.properties.directed = true ↔ t = .advDirectIndHigh ∨ t = .advDirectIndLow)) ∨
    (o = .extendedPdu h a.advertisingAddress a.targetAddress a.properties.connectable
      a.properties.scannable a.properties.directed a.sid a.periodicInterval a.data ∧ a.enable = true ∧
      a.properties.legacy = false) ∨
    (o = .periodicPdu h a.advertisingAddress a.sid a.periodicInterval a.periodicData ∧
      a.periodicLatch = true) ∨
    o = .directedTimeout ∨ (∃ n, o = .setTerminated h n) := by
  have h1 : ∃ en, (tickExtTimeout now h a).1 = { a with enable := en } ∧ (en = true → a.enable = true) ∧
      ∀ o ∈ (tickExtTimeout now h a).2, o = .directedTimeout ∨ (∃ n, o = .setTerminated h n) := by
    have hx : ∃ en, (tickExtTimeout now h a).1 = { a with enable := en } ∧ (en = true → a.enable = true) := by
      unfold tickExtTimeout
      simp only
      repeat' split
      all_goals first
        | exact ⟨false, rfl, by simp⟩
        | exact ⟨a.enable, rfl, id⟩
    obtain ⟨en, hx, hen⟩ := hx
    refine ⟨en, hx, hen, ?_⟩
    unfold tickExtTimeout
    simp only
    intro o ho
    rcases List.mem_append.1 ho with h | h
    · by_cases hc : (a.enable && a.timeout.any fun t => decide (now ≥ t)) = true
      · rw [if_pos hc] at h
        rcases List.mem_append.1 h with h | h
        · split at h
          · simp only [List.mem_singleton] at h; exact Or.inl h
          · exact absurd h List.not_mem_nil
        · simp only [List.mem_singleton] at h; exact Or.inr ⟨_, h⟩
      · rw [if_neg hc] at h; exact absurd h List.not_mem_nil
    · generalize hcond : (_ && _ && _ : Bool) = c at h
      cases c
      · exact absurd h List.not_mem_nil
      · rw [if_pos rfl, List.mem_singleton] at h; exact Or.inr ⟨_, h⟩
  obtain ⟨en, h1, hen, ho1⟩ := h1
  simp only [tickExt, h1] at hr
  split at hr
  · cases hr
  · rename_i r2 h2
    cases hr
    have h3 : ∃ ne nc, r2.1 = { a with enable := en, nextEvent := ne, numCompletedEvents := nc } := by
      simp only [tickExtEvent] at h2
      split at h2
      · split at h2
        · split at h2
          · cases h2
          · cases h2; exact ⟨_, _, rfl⟩
        · cases h2; exact ⟨_, _, rfl⟩
      · cases h2; exact ⟨_, _, rfl⟩
    obtain ⟨ne, nc, h3⟩ := h3
    intro o ho
    simp only [List.mem_append] at ho
    rcases ho with (ho | ho) | ho
    · exact Or.inr (Or.inr (Or.inr (ho1 o ho)))
    · simp only [tickExtEvent] at h2
      split at h2
      · rename_i he
        split at h2
        · rename_i hl
          split at h2
          · cases h2
          · rename_i t ht
            cases h2
            simp only [List.mem_singleton] at ho
            refine Or.inl ⟨t, ho, hen he.1, hl, ?_⟩
            rw [(legacyPduType_of_table a.properties ha.legacyTable hl).2, ht]
            simp
        · rename_i hl
          cases h2
          simp only [List.mem_singleton] at ho
          exact Or.inr (Or.inl ⟨ho, hen he.1, by simpa using hl⟩)
      · cases h2; exact absurd ho List.not_mem_nil
    · simp only [tickPeriodic, h3] at ho
      split at ho
      · rename_i hp
        simp only [List.mem_singleton] at ho
        exact Or.inr (Or.inr (Or.inl ⟨ho, hp.1⟩))
      · exact absurd ho List.not_mem_nil

/-! ### One step -/

theorem record_eq {g : Ghost} {c : Cmd} {st : Option Status}
    (hc : (match c with
      | .setExtAdvertisingData .. | .setExtScanResponseData .. | .setPeriodicData ..
      | .removeAdvertisingSet .. | .clearAdvertisingSets => true
      | _ => false) = false) : record g (.cmd c) st = g := by
  cases c <;> first | rfl | cases hc

theorem advsOk_step {cfg : Config} {s s' : State} {o : Op} {st out} {g : Ghost}
    (hs : AdvsOk cfg s.extAdv g) (h : step cfg s o = .ok s' st out) :
    AdvsOk cfg s'.extAdv (record g o st) := by
  cases o with
  | cmd c =>
    obtain ⟨e, he, rfl, -⟩ := step_cmd h
    by_cases hw : c.writesAdv = false
    · rw [runCmd_extAdv hw he, record_eq (by cases c <;> first | rfl | cases hw)]; exact hs
    · cases c
      case setExtAdvertisingEnable => exact setExtAdvertisingEnable_ok (runCmd_extEnable he) hs
      case setAdvertisingSetRandomAddress =>
        obtain ⟨rfl, rfl⟩ := runCmd_ret_of he; exact setAdvertisingSetRandomAddress_ok _ _ hs
      case setExtAdvertisingParameters =>
        obtain ⟨rfl, rfl⟩ := runCmd_ret_of he; exact setExtAdvertisingParameters_ok _ _ hs
      case setExtAdvertisingData =>
        obtain ⟨rfl, rfl⟩ := runCmd_ret_of he; exact setExtAdvertisingData_ok _ _ _ hs
      case setExtScanResponseData =>
        obtain ⟨rfl, rfl⟩ := runCmd_ret_of he; exact setExtScanResponseData_ok _ _ _ hs
      case removeAdvertisingSet =>
        obtain ⟨rfl, rfl⟩ := runCmd_ret_of he; exact removeAdvertisingSet_ok _ hs
      case clearAdvertisingSets =>
        obtain ⟨rfl, rfl⟩ := runCmd_ret_of he; exact clearAdvertisingSets_ok hs
      case setPeriodicParameters =>
        obtain ⟨rfl, rfl⟩ := runCmd_ret_of he; exact setPeriodicParameters_ok _ _ _ hs
      case setPeriodicData =>
        obtain ⟨rfl, rfl⟩ := runCmd_ret_of he; exact setPeriodicData_ok _ _ _ hs
      case setPeriodicEnable =>
        obtain ⟨rfl, rfl⟩ := runCmd_ret_of he; exact setPeriodicEnable_ok _ _ _ _ hs
      all_goals exact absurd rfl hw
  | env e =>
    obtain ⟨he, rfl⟩ := step_env h
    cases e
    case tick => obtain ⟨m, hm, rfl, -⟩ := runEnv_tick he; exact tickExtAll_ok hm hs
    case reset => simp only [runEnv] at he; cases he; exact advsOk_nil cfg
    case extendedConnected k =>
      simp only [runEnv] at he
      split at he
      · cases he; exact hs
      · rename_i a hf
        cases he
        exact hs.set' hf (fun ha => ⟨disable_ok ha, rfl, rfl, rfl, rfl, rfl, rfl⟩)
    all_goals unfold_env he
    all_goals exact hs

theorem runHist_ok {cfg : Config} (ops : List Op) : ∀ {s s' : State} {g g' : Ghost},
    AdvsOk cfg s.extAdv g → runHist cfg ops s g = some (s', g') → AdvsOk cfg s'.extAdv g' := by
  induction ops with
  | nil => intro s s' g g' hs h; cases h; exact hs
  | cons o ops ih =>
    intro s s' g g' hs h
    simp only [runHist] at h
    split at h
    · rename_i hstep; exact ih (advsOk_step hs hstep) h
    · cases h
    · cases h

theorem run_runHist {cfg : Config} (ops : List Op) : ∀ {s s' : State} (g : Ghost),
    run cfg ops s = some s' → ∃ g', runHist cfg ops s g = some (s', g') := by
  induction ops with
  | nil => intro s s' g h; cases h; exact ⟨g, rfl⟩
  | cons o ops ih =>
    intro s s' g h
    simp only [run] at h
    split at h
    · rename_i hstep; simp only [runHist, hstep]; exact ih _ h
    · cases h
    · cases h

theorem advsOk_reachable {cfg : Config} {s : State} (h : Reachable cfg s) :
    ∃ g, AdvsOk cfg s.extAdv g := by
  obtain ⟨a, ops, hr⟩ := h
  obtain ⟨g, hg⟩ := run_runHist ops {} hr
  exact ⟨g, runHist_ok ops (s := initial a) (advsOk_nil cfg) hg⟩

/-! ### The legacy advertiser -/

/-- The legacy data fits. -/
def LegacyOk (s : State) : Prop := s.legacyAdv.data.length ≤ 31 ∧ s.legacyAdv.scanResponse.length ≤ 31

theorem tickLegacy_data (now : Nat) (a : LegacyAdv) :
    (tickLegacy now a).1.data = a.data ∧ (tickLegacy now a).1.scanResponse = a.scanResponse := by
  unfold tickLegacy
  simp only
  repeat' split
  all_goals exact ⟨rfl, rfl⟩

/-- What the tick sends for the legacy advertiser. -/
theorem tickLegacy_out (now : Nat) (a : LegacyAdv) : ∀ o ∈ (tickLegacy now a).2, o = .directedTimeout ∨
    o = .legacyPdu none a.type a.advertisingAddress a.targetAddress
      (if a.type = .advDirectIndHigh ∨ a.type = .advDirectIndLow then [] else a.data) := by
  intro o ho
  unfold tickLegacy at ho
  simp only [Bool.or_eq_true, beq_iff_eq] at ho
  by_cases hc : (a.enable && a.timeout.any fun t => decide (now ≥ t)) = true
  · simp only [hc, if_true] at ho
    simp at ho
    exact Or.inl ho
  · simp only [hc, Bool.false_eq_true, if_false] at ho
    split at ho
    · simp only [List.nil_append, List.mem_singleton] at ho; exact Or.inr ho
    · exact absurd ho List.not_mem_nil

theorem legacyOk_step {cfg : Config} {s s' : State} {o : Op} {st out} (hp : o.parsed) (hs : LegacyOk s)
    (h : step cfg s o = .ok s' st out) : LegacyOk s' := by
  unfold LegacyOk at *
  cases o with
  | cmd c =>
    obtain ⟨e, he, rfl, -⟩ := step_cmd h
    cases c
    case setExtAdvertisingEnable =>
      obtain ⟨m, r, x, rfl⟩ := extEnable_frame (runCmd_extEnable he); exact hs
    case setAdvertisingData d =>
      obtain ⟨rfl, -⟩ := runCmd_ret_of he
      simp only [setAdvertisingData, withLegacy]
      split
      · exact hs
      · exact ⟨hp, hs.2⟩
    case setScanResponseData d =>
      obtain ⟨rfl, -⟩ := runCmd_ret_of he
      simp only [setScanResponseData, withLegacy]
      split
      · exact hs
      · exact ⟨hs.1, hp⟩
    all_goals
      obtain ⟨rfl, -⟩ := runCmd_ret_of he
      unfold_handlers
      repeat' split
      all_goals first | exact hs | (simp_all; done)
  | env e =>
    obtain ⟨he, rfl⟩ := step_env h
    cases e
    case tick now =>
      obtain ⟨m, hm, rfl, -⟩ := runEnv_tick he
      simp only
      rw [(tickLegacy_data now s.legacyAdv).1, (tickLegacy_data now s.legacyAdv).2]; exact hs
    case reset => simp only [runEnv] at he; cases he; simp
    all_goals unfold_env he
    all_goals exact hs

theorem legacyOk_run {cfg : Config} (ops : List Op) : ∀ {s s' : State}, (∀ o ∈ ops, o.parsed) →
    LegacyOk s → run cfg ops s = some s' → LegacyOk s' := by
  induction ops with
  | nil => intro s s' _ hs h; cases h; exact hs
  | cons o ops ih =>
    intro s s' hp hs h
    simp only [run] at h
    split at h
    · rename_i hstep
      exact ih (fun o ho => hp o (List.mem_cons_of_mem _ ho)) (legacyOk_step (hp o List.mem_cons_self) hs hstep) h
    · cases h
    · cases h

end Verif.Le
