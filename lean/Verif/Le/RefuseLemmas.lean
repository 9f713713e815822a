import Verif.Le.SpecRefuse
import Verif.Le.ParamLemmas
import Verif.Le.AdvLemmas
/-!
# Reasons to refuse an LE command: helper lemmas
-/

namespace Verif.Le

theorem First.ite {c p : Prop} [Decidable c] {e st : Status} {ps : List (Prop × Status)} (h : c ↔ p) (r : ¬ p → First ps st) :
    First ((p, e) :: ps) (if c then e else st) := by
  by_cases hc : c
  · rw [if_pos hc]; exact Or.inl ⟨h.1 hc, rfl⟩
  · rw [if_neg hc]; exact Or.inr ⟨fun hp => hc (h.2 hp), r (fun hp => hc (h.2 hp))⟩

theorem First.orIte {c p q : Prop} [Decidable c] {e st : Status} {ps : List (Prop × Status)} (h : c ↔ q)
    (r : ¬ q → First ((p, e) :: ps) st) : First ((q ∨ p, e) :: ps) (if c then e else st) := by
  by_cases hc : c
  · rw [if_pos hc]; exact Or.inl ⟨Or.inl (h.1 hc), rfl⟩
  · rw [if_neg hc]
    have hq : ¬ q := fun hq => hc (h.2 hq)
    rcases r hq with ⟨hp, h⟩ | ⟨hp, h⟩
    · exact Or.inl ⟨Or.inr hp, h⟩
    · exact Or.inr ⟨fun hor => hor.elim hq hp, h⟩

/-- Two ways to say the same reason. -/
theorem First.congr {p q : Prop} {e st : Status} {ps : List (Prop × Status)} (h : p ↔ q) (r : First ((p, e) :: ps) st) :
    First ((q, e) :: ps) st := by rw [← propext h]; exact r

theorem First.nil : First [] .success := rfl

theorem First.skip {p : Prop} {e st : Status} {ps : List (Prop × Status)} (hp : ¬ p) (h : First ps st) : First ((p, e) :: ps) st :=
  Or.inr ⟨hp, h⟩

theorem First.append {ps qs : List (Prop × Status)} {a b : Status} (he : ∀ x ∈ ps, x.2 ≠ .success) (h : First ps a)
    (h' : a = .success → First qs b) : First (ps ++ qs) (if a = .success then b else a) := by
  induction ps with
  | nil => cases h; exact h' rfl
  | cons x ps ih =>
    obtain ⟨p, e⟩ := x
    rcases h with ⟨hp, rfl⟩ | ⟨hp, h⟩
    · rw [if_neg (he _ List.mem_cons_self)]
      exact Or.inl ⟨hp, rfl⟩
    · exact Or.inr ⟨hp, ih (fun x hx => he x (List.mem_cons_of_mem _ hx)) h⟩

theorem First.app2 {x y : Prop × Status} {qs : List (Prop × Status)} {a b : Status} (he : ∀ z ∈ [x, y], z.2 ≠ .success) (h : First [x, y] a)
    (h' : a = .success → First qs b) : First (x :: y :: qs) (if a = .success then b else a) := First.append he h h'

theorem First.app3 {x y z : Prop × Status} {qs : List (Prop × Status)} {a b : Status} (he : ∀ w ∈ [x, y, z], w.2 ≠ .success) (h : First [x, y, z] a)
    (h' : a = .success → First qs b) : First (x :: y :: z :: qs) (if a = .success then b else a) := First.append he h h'

theorem First.merge {p q : Prop} {e st : Status} {ps : List (Prop × Status)} (h : First ((p, e) :: (q, e) :: ps) st) : First ((p ∨ q, e) :: ps) st := by
  simp only [First] at h ⊢; grind

theorem First.tail {x : Prop × Status} {st : Status} {ps qs : List (Prop × Status)} (h : First (x :: ps) st) (r : First ps st → First qs st) :
    First (x :: qs) st := by
  simp only [First] at h ⊢; grind

theorem checkedThen_snd (checks : List (Bool × Status)) (s : State) (next : State × Status) :
    (checkedThen checks s next).2 = if firstError checks = .success then next.2 else firstError checks := by
  simp only [checkedThen]; split <;> rfl

theorem checked_snd (checks : List (Bool × Status)) (s u : State) : (checked checks s u).2 = firstError checks := by
  simp only [checked, checkedThen_snd]
  split
  · rename_i h; exact h.symm
  · rfl

theorem withLegacy_snd (s : State) (f : State → State × Status) :
    (withLegacy s f).2 = if s.extendedInUse = true then .commandDisallowed else (f { s with legacyInUse := true }).2 := by
  simp only [withLegacy]; split <;> rfl

theorem withExtended_snd (s : State) (f : State → State × Status) :
    (withExtended s f).2 = if s.legacyInUse = true then .commandDisallowed else (f { s with extendedInUse := true }).2 := by
  simp only [withExtended]; split <;> rfl

theorem first_error (b : Bool) (e : Status) (r : List (Bool × Status)) : firstError ((b, e) :: r) = if b = true then e else firstError r := rfl

/-! ### Conditions -/

theorem resolvingBusy_iff (s : State) : resolvingListBusy s = true ↔ Active s := by
  simp only [resolvingListBusy, Active, Bool.or_eq_true, List.any_eq_true, Prod.exists, or_assoc]

theorem resolvingInUse_iff (s : State) : (s.resolvingListEnabled && resolvingListBusy s) = true ↔ ResolvingListInUse s := by
  rw [Bool.and_eq_true, resolvingBusy_iff]; rfl

theorem locked_iff (s : State) : filterAcceptListBusy s = true ↔ Locked s := by
  simp only [filterAcceptListBusy, Locked, Bool.or_eq_true, Bool.and_eq_true, List.any_eq_true, Prod.exists, or_assoc, bne_iff_ne, beq_iff_eq]

theorem resolvable_any (s : State) (t : PeerAddressType) (a : Address) :
    s.resolvingList.any (fun e => e.peerType == t && e.peerAddress == a) = true ↔ Resolvable s (t, a) := by
  simp only [Resolvable, List.any_eq_true, Bool.and_eq_true, beq_iff_eq, Prod.mk.injEq]

theorem noScan_iff (s : State) : scanAddressMissing s = true ↔ NoScanAddress s := by
  simp only [scanAddressMissing, NoScanAddress, Bool.and_eq_true, Bool.or_eq_true, beq_iff_eq]

theorem and7 (n : Nat) : (n &&& 0x7 == 0) = true ↔ n % 8 = 0 := by
  rw [show (0x7 : Nat) = 2 ^ 3 - 1 from rfl, Nat.and_two_pow_sub_one_eq_mod]; simp

theorem and31 (n : Nat) : (n &&& 0x1f == 0x1f) = true ↔ n % 32 = 31 := by
  rw [show n &&& 0x1f = n % 2 ^ 5 from Nat.and_two_pow_sub_one_eq_mod n 5]; simp

theorem canHave_iff : ∀ p : EventProperties, p.canHaveData = false ↔ dataLimit p = 0 := by
  apply forall_properties
  decide +kernel

theorem scanLimit_iff : ∀ p : EventProperties, p.scannable = false ↔ scanResponseLimit p = 0 := by
  apply forall_properties
  decide +kernel

instance (p : EventProperties) : Decidable (Understood p) := by unfold Understood; infer_instance

theorem understood_iff : ∀ p : EventProperties, ¬ Understood p ↔
    (p.legacy && !legacyEventTypes.contains (p.raw - 0x10)) = true ∨ (!p.legacy && p.connectable && p.scannable) = true ∨
      (!p.legacy && p.connectable && p.directed && p.highDutyCycle) = true := by
  apply forall_properties
  decide +kernel

theorem peer_mem (l : List RlEntry) (rnd : Irk → Address) (t : PeerAddressType) (a : Address) :
    (generateRpa rnd (peerDeviceAddress a t) .loc l).2 = none ↔ ¬ ∃ e ∈ l, e.peerType = t ∧ e.peerAddress = a := by
  rw [← Option.isNone_iff_eq_none, generateRpa_isSome]
  have : (peerDeviceAddress a t).address = a ∧ (peerDeviceAddress a t).toPeerType = t := by cases t <;> exact ⟨rfl, rfl⟩
  rw [this.1, this.2]
  constructor
  · rintro h ⟨e, he, h1, h2⟩; exact h e he ⟨h2.symm, h1.symm⟩
  · intro h e he h'; exact h ⟨e, he, h'.2.symm, h'.1.symm⟩

theorem choose_none (l : List RlEntry) (rnd : Irk → Address) (own : OwnAddressType) (pub : AddressWithType) (r : Address)
    (t : PeerAddressType) (a : Address) :
    chooseAddress own pub ⟨r, .randomDevice⟩ (generateRpa rnd (peerDeviceAddress a t) .loc l).2 = none ↔ NoAdvAddress l own r t a := by
  have hm := peer_mem l rnd t a
  simp only [NoAdvAddress, ← hm]
  cases own <;> simp only [chooseAddress]
  · simp
  · by_cases hr : r = 0 <;> simp [hr]
  · simp
  · cases (generateRpa rnd (peerDeviceAddress a t) .loc l).2 with
    | none => by_cases hr : r = 0 <;> simp [hr]
    | some x => simp

theorem connReasons_errors (p : ConnParams) : ∀ x ∈ connReasons p, x.2 ≠ .success := by
  intro x hx
  simp only [connReasons, List.mem_cons, List.not_mem_nil, or_false] at hx
  rcases hx with rfl | rfl | rfl | rfl | rfl | rfl | rfl <;> simp

theorem conn_first (p : ConnParams) (ps : List (Prop × Status)) (bs : List (Bool × Status)) (h : First ps (firstError bs)) :
    First (connReasons p ++ ps) (firstError (connChecks p ++ bs)) := by
  simp only [connReasons, connChecks, List.cons_append, List.nil_append, first_error]
  refine First.ite (by simp only [decide_eq_true_eq]; omega) fun _ => ?_
  refine First.ite (by simp only [decide_eq_true_eq]) fun _ => ?_
  refine First.ite (by simp only [decide_eq_true_eq]; omega) fun _ => ?_
  refine First.ite (by simp only [decide_eq_true_eq]) fun _ => ?_
  refine First.ite (by simp only [decide_eq_true_eq]) fun _ => ?_
  refine First.ite (by simp only [decide_eq_true_eq]; omega) fun _ => ?_
  refine First.ite ?_ fun _ => h
  simp only [decide_eq_true_eq, TimeoutRuleWeak]
  generalize hX : (1 + p.maxLatency) * (p.intervalMax) = X
  have e1 : (1 + p.maxLatency) * (2 * p.intervalMax) * 2 * 625 = X * 2500 := by
    rw [← hX, Nat.mul_left_comm]; omega
  have e2 : (1 + p.maxLatency) * (p.intervalMax * 1250) * 2 = X * 2500 := by
    rw [← hX, ← Nat.mul_assoc]; omega
  rw [e1, e2]; omega

theorem conns_first (params : List ConnParams) (ps : List (Prop × Status)) (bs : List (Bool × Status)) (h : First ps (firstError bs)) :
    First (params.flatMap connReasons ++ ps) (firstError (params.flatMap connChecks ++ bs)) := by
  induction params with
  | nil => exact h
  | cons p params ih =>
    simp only [List.flatMap_cons, List.append_assoc]
    exact conn_first p _ _ ih

theorem conns_errors (params : List ConnParams) : ∀ x ∈ params.flatMap connReasons, x.2 ≠ .success := by
  intro x hx
  obtain ⟨p, -, h⟩ := List.mem_flatMap.1 hx
  exact connReasons_errors p x h

theorem scanPhys_first (params : List ScanPhyParams) :
    First [(∃ p ∈ params, p.interval < 4 ∨ p.window < 4 ∨ p.interval < p.window, .invalidHciCommandParameters)]
      (firstError (params.flatMap (fun p =>
        [(decide (p.interval < 0x4 ∨ p.window < 0x4), Status.invalidHciCommandParameters),
         (decide (p.window > p.interval), .invalidHciCommandParameters)]))) := by
  induction params with
  | nil => exact First.skip (by rintro ⟨p, hp, -⟩; cases hp) rfl
  | cons p params ih =>
    simp only [List.flatMap_cons, List.cons_append, List.nil_append, first_error]
    refine First.congr (p := (p.interval < 4 ∨ p.window < 4) ∨ (p.interval < p.window) ∨ ∃ p ∈ params, p.interval < 4 ∨ p.window < 4 ∨ p.interval < p.window) ?_ ?_
    · simp only [List.mem_cons, exists_eq_or_imp, or_assoc]
    · refine First.orIte (by simp only [decide_eq_true_eq]) fun _ => First.orIte (by simp only [decide_eq_true_eq]) fun _ => ih

theorem params_first (a : ExtAdv) (p : ExtParams) : First (paramReasons a p) (firstError (extParamChecks a p)) := by
  have hu := understood_iff p.properties
  simp only [paramReasons, extParamChecks, first_error]
  refine First.ite Iff.rfl fun _ => ?_
  refine First.congr (p := (p.properties.legacy && !legacyEventTypes.contains (p.properties.raw - 0x10)) = true ∨
      (dataLimit p.properties = 0 ∧ a.data ≠ []) ∨ (scanResponseLimit p.properties = 0 ∧ a.scanResponse ≠ []) ∨
      (p.properties.legacy = true ∧ (31 < a.data.length ∨ 31 < a.scanResponse.length)) ∨
      (!p.properties.legacy && p.properties.connectable && p.properties.scannable) = true ∨
      (!p.properties.legacy && p.properties.connectable && p.properties.directed && p.properties.highDutyCycle) = true) ?_ ?_
  · rw [hu]; grind
  refine First.orIte Iff.rfl fun _ => First.orIte ?_ fun _ => First.orIte ?_ fun _ => First.orIte ?_ fun _ => First.orIte Iff.rfl fun _ =>
    First.ite Iff.rfl fun _ => First.ite ?_ fun _ => First.orIte ?_ fun _ => First.orIte (and7 _) fun _ => First.ite ?_ fun _ => First.ite ?_ fun _ =>
    First.ite ?_ fun _ => First.ite ?_ fun _ => First.nil
  · rw [← canHave_iff]; cases p.properties.canHaveData <;> cases a.data <;> simp
  · rw [← scanLimit_iff]; cases p.properties.scannable <;> cases a.scanResponse <;> simp
  · simp only [Bool.and_eq_true, decide_eq_true_eq]; rfl
  · simp only [decide_eq_true_eq]
  · simp only [decide_eq_true_eq]
  · cases p.primaryPhy <;> simp
  · simp only [Bool.and_eq_true, beq_iff_eq]
  · simp only [Bool.and_eq_true, Bool.or_eq_true, or_assoc]
  · simp only [Bool.and_eq_true, decide_eq_true_eq, Bool.not_eq_true']; rfl

/-! ### Data -/

theorem fragment_iff (op : Operation) : (op != .completeAdvertisement && op != .unchangedData) = true ↔ op.fragment := by
  cases op <;> simp [Operation.fragment]

theorem applyOperation_length (op : Operation) (old new : List UInt8) (part : Bool) :
    (op = .other ∧ applyOperation op old new part = none) ∨
    (op ≠ .other ∧ ∃ d b, applyOperation op old new part = some (d, b) ∧ d.length = newLength op old.length new.length) := by
  cases op <;> simp [applyOperation, newLength]

theorem data_first (cfg : Config) (s : State) (h : UInt8) (op : Operation) (d : List UInt8) :
    First (reasons cfg s (.setExtAdvertisingData h op d)) (setExtAdvertisingData cfg s h op d).2 := by
  simp only [reasons, setExtAdvertisingData, withExtended_snd]
  refine First.ite Iff.rfl fun _ => ?_
  simp only [State.onSet]
  change First (match mapFind s.extAdv h with | none => _ | some a => _) _
  cases mapFind s.extAdv h with
  | none => exact Or.inl ⟨trivial, rfl⟩
  | some a =>
    dsimp only
    rw [checkedThen_snd]
    refine First.app2 (by simp) ?_ fun _ => ?_
    · simp only [first_error]
      refine First.orIte ?_ fun _ => First.orIte ?_ fun _ => First.orIte ?_ fun _ => First.ite ?_ fun _ => First.ite ?_ fun _ => First.nil
      · rw [← canHave_iff]; simp
      · simp only [Bool.and_eq_true, Bool.or_eq_true, bne_iff_ne, decide_eq_true_eq]; rfl
      · simp only [Bool.and_eq_true, Bool.or_eq_true, beq_iff_eq, Bool.not_eq_true', List.isEmpty_iff, or_assoc]
        cases d <;> simp
      · rw [Bool.and_eq_true, fragment_iff, List.isEmpty_iff]
      · rw [Bool.and_assoc, Bool.and_eq_true, fragment_iff]
    · rcases applyOperation_length op a.data d a.partialData with ⟨ho, hn⟩ | ⟨ho, x, b, hs, hl⟩
      · rw [hn]; exact Or.inl ⟨ho, rfl⟩
      · rw [hs]
        refine First.skip ho ?_
        dsimp only
        rw [apply_ite Prod.snd, apply_ite Prod.snd, ← hl]
        exact First.ite Iff.rfl fun _ => First.ite (by rw [maxData_eq]) fun _ => First.nil

theorem scanResponse_first (cfg : Config) (s : State) (h : UInt8) (op : Operation) (d : List UInt8) :
    First (reasons cfg s (.setExtScanResponseData h op d)) (setExtScanResponseData cfg s h op d).2 := by
  simp only [reasons, setExtScanResponseData, withExtended_snd]
  refine First.ite Iff.rfl fun _ => ?_
  simp only [State.onSet]
  change First (match mapFind s.extAdv h with | none => _ | some a => _) _
  cases mapFind s.extAdv h with
  | none => exact Or.inl ⟨trivial, rfl⟩
  | some a =>
    dsimp only
    rw [checkedThen_snd, scanResponseReasons]
    refine First.tail ?_ (fun h => First.tail h First.merge)
    refine First.app3 (by simp) ?_ fun _ => ?_
    · simp only [first_error]
      refine First.orIte ?_ fun _ => First.orIte ?_ fun _ => First.ite ?_ fun _ => ?_
      · cases a.properties.scannable <;> cases d <;> simp
      · simp only [Bool.and_eq_true, Bool.or_eq_true, bne_iff_ne, decide_eq_true_eq, and_assoc]; rfl
      · simp only [Bool.and_eq_true, bne_iff_ne, List.isEmpty_iff]
      · refine First.congr (p := (a.enable = true ∧ op ≠ .completeAdvertisement) ∨ (a.enable = true ∧ a.properties.scannable = true ∧ a.properties.legacy = false ∧ d = [])) (by grind) ?_
        refine First.orIte ?_ fun _ => First.ite ?_ fun _ => First.ite ?_ fun _ => First.nil
        · simp only [Bool.and_eq_true, bne_iff_ne]
        · simp only [Bool.and_eq_true, Bool.not_eq_true', List.isEmpty_iff, and_assoc]
        · simp only [beq_iff_eq]
    · rcases applyOperation_length op a.scanResponse d a.partialScanResponse with ⟨ho, hn⟩ | ⟨ho, x, b, hs, hl⟩
      · rw [hn]; exact Or.inl ⟨ho, rfl⟩
      · rw [hs]
        refine First.skip ho ?_
        dsimp only
        rw [apply_ite Prod.snd, apply_ite Prod.snd, ← hl]
        exact First.ite Iff.rfl fun _ => First.ite Iff.rfl fun _ => First.nil

theorem periodicData_first (cfg : Config) (s : State) (h : UInt8) (op : Operation) (d : List UInt8) :
    First (reasons cfg s (.setPeriodicData h op d)) (setPeriodicData cfg s h op d).2 := by
  simp only [reasons, setPeriodicData]
  simp only [State.onSet]
  change First (match mapFind s.extAdv h with | none => _ | some a => _) _
  cases mapFind s.extAdv h with
  | none => exact Or.inl ⟨trivial, rfl⟩
  | some a =>
    dsimp only
    rw [checkedThen_snd]
    rw [periodicDataReasons]
    refine First.tail ?_ (fun h => First.congr or_assoc (First.merge h))
    refine First.app2 (by simp) ?_ fun _ => ?_
    · simp only [first_error]
      refine First.orIte ?_ fun _ => First.ite ?_ fun _ => First.orIte ?_ fun _ => First.ite ?_ fun _ => First.nil
      · simp only [beq_iff_eq]
      · rw [Bool.and_assoc, Bool.and_eq_true, fragment_iff]
      · rw [Bool.and_assoc, Bool.and_eq_true, fragment_iff, List.isEmpty_iff]
      · simp only [Bool.and_eq_true, Bool.or_eq_true, beq_iff_eq, Bool.not_eq_true', List.isEmpty_iff, or_assoc]
        cases d <;> simp
    · rcases applyOperation_length op a.periodicData d a.partialPeriodicData with ⟨ho, hn⟩ | ⟨ho, x, b, hs, hl⟩
      · rw [hn]; exact Or.inl ⟨ho, rfl⟩
      · rw [hs]
        refine First.skip ho ?_
        dsimp only
        rw [apply_ite Prod.snd, apply_ite Prod.snd, ← hl]
        exact First.ite Iff.rfl fun _ => First.ite Iff.rfl fun _ => First.nil

/-! ### Enabling -/

theorem handles_first (s : State) (sets : List EnabledSet) : ∀ seen : List UInt8,
    checkHandles s.extAdv seen sets ≠ .ub →
      First (handleReasons s seen sets) (match checkHandles s.extAdv seen sets with | .fail e => e | _ => .success) := by
  induction sets with
  | nil => intro seen _; rfl
  | cons set sets ih =>
    intro seen
    simp only [handleReasons, checkHandles]
    by_cases h0 : set.handle = 255
    · rw [if_pos h0]; intro h; exact absurd rfl h
    · rw [if_neg h0]
      by_cases h1 : seen.contains set.handle = true
      · rw [if_pos h1]; intro _; exact Or.inl ⟨List.contains_iff_mem.1 h1, rfl⟩
      · rw [if_neg h1]
        by_cases h2 : (mapFind s.extAdv set.handle).isNone = true
        · rw [if_pos h2]; intro _
          exact First.skip (fun h => h1 (List.contains_iff_mem.2 h)) (Or.inl ⟨Option.isNone_iff_eq_none.1 h2, rfl⟩)
        · rw [if_neg h2]; intro h
          exact First.skip (fun h => h1 (List.contains_iff_mem.2 h)) (First.skip (fun h => h2 (Option.isNone_iff_eq_none.2 h)) (ih _ h))

theorem handles_errors (s : State) (sets : List EnabledSet) : ∀ seen : List UInt8, ∀ x ∈ handleReasons s seen sets, x.2 ≠ .success := by
  induction sets with
  | nil => intro seen x hx; cases hx
  | cons set sets ih =>
    intro seen x hx
    simp only [handleReasons, List.mem_cons] at hx
    rcases hx with rfl | rfl | hx
    · simp
    · simp
    · exact ih _ x hx

theorem enableReasons_errors (l : List RlEntry) (a : ExtAdv) (set : EnabledSet) : ∀ x ∈ enableReasons l a set, x.2 ≠ .success := by
  intro x hx
  simp only [enableReasons, List.mem_cons, List.not_mem_nil, or_false] at hx
  rcases hx with rfl | rfl | rfl | rfl | rfl <;> simp

/-- The addresses of a set do not count. -/
def blank (a : ExtAdv) : ExtAdv := { a with advertisingAddress := ⟨0, .publicDevice⟩, targetAddress := ⟨0, .publicDevice⟩ }

theorem enableReasons_blank (l : List RlEntry) (a : ExtAdv) (set : EnabledSet) : enableReasons l a set = enableReasons l (blank a) set := rfl

theorem enableReasons_list {l l' : List RlEntry} (h : l.map (fun e => (e.peerType, e.peerAddress)) = l'.map (fun e => (e.peerType, e.peerAddress)))
    (a : ExtAdv) (set : EnabledSet) : enableReasons l a set = enableReasons l' a set := by
  have : ∀ t x, (∃ e ∈ l, e.peerType = t ∧ e.peerAddress = x) ↔ (∃ e ∈ l', e.peerType = t ∧ e.peerAddress = x) := by
    intro t x
    have e : ∀ k : List RlEntry, (∃ e ∈ k, e.peerType = t ∧ e.peerAddress = x) ↔ (t, x) ∈ k.map (fun e => (e.peerType, e.peerAddress)) := by
      intro k; simp only [List.mem_map, Prod.mk.injEq]
    rw [e, e, h]
  simp only [enableReasons, NoAdvAddress, this]

theorem generateRpa_keys (rnd : Irk → Address) (a : AddressWithType) (l : List RlEntry) :
    (generateRpa rnd a .loc l).1.map (fun e => (e.peerType, e.peerAddress)) = l.map (fun e => (e.peerType, e.peerAddress)) := by
  induction l with
  | nil => rfl
  | cons e l ih =>
    simp only [generateRpa]
    split
    · rfl
    · simp only [List.map_cons, ih]

theorem enable_first (cfg : Config) (rnd : Nat → Irk → Address) (s0 : State) (sets : List EnabledSet) : ∀ (i : Nat) (s : State),
    (∀ h, blank ((mapFind s.extAdv h).getD {}) = blank ((mapFind s0.extAdv h).getD {})) →
    s.resolvingList.map (fun e => (e.peerType, e.peerAddress)) = s0.resolvingList.map (fun e => (e.peerType, e.peerAddress)) →
      First (sets.flatMap (fun set => enableReasons s0.resolvingList ((mapFind s0.extAdv set.handle).getD {}) set)) (validateSets cfg rnd i sets s).2 := by
  induction sets with
  | nil => intro i s _ _; rfl
  | cons set sets ih =>
    intro i s hb hl
    have he : enableReasons s0.resolvingList ((mapFind s0.extAdv set.handle).getD {}) set =
        enableReasons s.resolvingList ((mapFind s.extAdv set.handle).getD {}) set := by
      rw [enableReasons_blank, ← hb, ← enableReasons_blank, enableReasons_list hl.symm]
    simp only [List.flatMap_cons, he, validateSets]
    generalize hg : (mapFind s.extAdv set.handle).getD {} = a
    rw [checkedThen_snd, enableReasons]
    have hc := choose_none s.resolvingList (rnd (2 * i)) a.ownAddressType ⟨cfg.publicAddress, .publicDevice⟩ (a.randomAddress.getD 0) a.peerAddressType a.peerAddress
    have split : ∀ (p1 p2 p3 p4 p5 : Prop × Status) (r : List (Prop × Status)), [p1, p2, p3, p4, p5] ++ r = [p1, p2, p3, p4] ++ (p5 :: r) :=
      fun _ _ _ _ _ _ => rfl
    rw [split]
    refine First.append (by simp) ?_ fun _ => ?_
    · simp only [extEnableChecks, first_error]
      refine First.ite ?_ fun _ => First.congr (p := (a.partialData = true ∨ a.partialScanResponse = true) ∨
        (a.properties.legacy = false ∧ a.properties.scannable = true ∧ a.scanResponse = [])) or_assoc (First.orIte ?_ fun _ => First.ite ?_ fun _ =>
        First.ite ?_ fun _ => First.ite ?_ fun _ => First.nil)
      · simp only [Bool.and_eq_true, Bool.or_eq_true, beq_iff_eq, decide_eq_true_eq, and_assoc]
        have : (set.duration = 0 ∨ set.duration * 10 > 1280) ↔ ¬ (1 ≤ set.duration ∧ set.duration ≤ 128) := by omega
        rw [this]
      · simp only [Bool.or_eq_true]
      · simp only [Bool.and_eq_true, Bool.not_eq_true', List.isEmpty_iff, and_assoc]
      · simp only [Bool.and_eq_true, Bool.not_eq_true', decide_eq_true_eq, and_assoc, maxData_eq]
      · simp only [Bool.and_eq_true, Bool.not_eq_true', decide_eq_true_eq]; rfl
    · cases hx : chooseAddress a.ownAddressType ⟨cfg.publicAddress, .publicDevice⟩ ⟨a.randomAddress.getD 0, .randomDevice⟩
          (generateRpa (rnd (2 * i)) (peerDeviceAddress a.peerAddress a.peerAddressType) .loc s.resolvingList).2 with
      | none => exact Or.inl ⟨hc.1 hx, rfl⟩
      | some x =>
        refine First.skip (fun h => by rw [hc.2 h] at hx; cases hx) ?_
        dsimp only
        refine ih (i + 1) _ (fun h => ?_) ?_
        · simp only [mapFind_mapSet]
          by_cases hh : set.handle = h
          · subst hh; rw [← hb set.handle, hg]; simp; rfl
          · rw [← hb h]; simp [hh, Ne.symm hh]
        · rw [← hl]; exact generateRpa_keys _ _ _

theorem extEnable_first (cfg : Config) (now : Nat) (rnd : Nat → Irk → Address) (s : State) (e : Bool) (sets : List EnabledSet) (r : State × Status)
    (h : setExtAdvertisingEnable cfg now rnd s e sets = some r) :
    First (reasons cfg s (.setExtAdvertisingEnable now rnd e sets)) r.2 := by
  simp only [setExtAdvertisingEnable] at h
  simp only [reasons]
  by_cases hl : s.legacyInUse = true
  · rw [if_pos hl] at h; cases h; exact Or.inl ⟨hl, rfl⟩
  rw [if_neg hl] at h
  refine First.skip hl ?_
  have hf := handles_first s sets []
  cases hc : checkHandles s.extAdv [] sets with
  | ub => rw [hc] at h; cases h
  | fail er =>
    rw [hc] at h hf; cases h
    have hne : er ≠ .success := by
      have := hf (by simp)
      intro he
      subst he
      clear hf this
      revert hc
      generalize ([] : List UInt8) = seen
      induction sets generalizing seen with
      | nil => intro hc; cases hc
      | cons set sets ih =>
        simp only [checkHandles]
        repeat' split
        all_goals (intro hc; first | cases hc | exact ih _ hc)
    have := First.append (qs := (e = true ∧ sets = [], .invalidHciCommandParameters) ::
      (if e then sets.flatMap (fun set => enableReasons s.resolvingList ((s.advSet set.handle).getD {}) set) else [])) (b := .success)
      (handles_errors s sets []) (hf (by simp)) (fun h => absurd h hne)
    rw [if_neg hne] at this
    exact this
  | ok =>
    rw [hc] at h hf
    have key := fun b => First.append (b := b) (qs := (e = true ∧ sets = [], .invalidHciCommandParameters) ::
      (if e then sets.flatMap (fun set => enableReasons s.resolvingList ((s.advSet set.handle).getD {}) set) else []))
      (handles_errors s sets []) (hf (by simp))
    simp only [true_imp_iff, if_true] at key
    refine key _ ?_
    cases e with
    | false =>
      refine First.skip (by simp) ?_
      simp only [Bool.false_eq_true, if_false, true_and] at h ⊢
      by_cases hs : sets = []
      · rw [if_pos hs] at h; cases h; rfl
      · rw [if_neg hs, if_neg hs] at h; simp only [if_true] at h; cases h; rfl
    | true =>
      simp only [Bool.true_eq_false, false_and, if_false] at h
      by_cases hs : sets = []
      · rw [if_pos hs] at h; cases h; exact Or.inl ⟨⟨rfl, hs⟩, rfl⟩
      · rw [if_neg hs] at h
        refine First.skip (fun hx => hs hx.2) ?_
        rw [if_pos rfl]
        have hv := enable_first cfg rnd { s with extendedInUse := true } sets 0 { s with extendedInUse := true } (fun _ => rfl) rfl
        split at h
        · rename_i ho; cases h
          rw [ho] at hv; exact hv
        · cases h; exact hv

end Verif.Le
