import Verif.Ll.ReportLemmas
import Verif.Ll.RpaInv
import Verif.Ll.SpecScan
/-!
# The scanner: helper lemmas
-/

namespace Verif.Ll
open Verif.Le

theorem any_modifyFirst {α : Type} (p q : α → Bool) (f : α → α) (h : ∀ a, p (f a) = p a) (l : List α) :
    (modifyFirst q f l).any p = l.any p := by
  induction l with
  | nil => rfl
  | cons a l ih =>
    simp only [modifyFirst]
    split
    · simp [h]
    · simp [ih]

theorem resolveTarget_update (ah : Hash) (s : Le.State) (a t r : AddressWithType) :
    resolveTarget ah (resolveUpdate ah s a) t r = resolveTarget ah s t r := by
  unfold resolveUpdate
  split
  · simp only [resolveTarget]
    rw [any_modifyFirst]
    intro e; rfl
  · rfl

theorem isLocal_iff (cfg : Config) (s : Le.State) (a : AddressWithType) :
    isLocal cfg s a = true ↔ OwnDeviceAddress cfg s a := by
  obtain ⟨x, t⟩ := a
  cases t <;> simp [isLocal, OwnDeviceAddress]

theorem falContains_iff (s : Le.State) (a : AddressWithType) :
    falContains s a = true ↔ Listed s a := by
  obtain ⟨x, t⟩ := a
  simp only [falContains, filterAcceptListContains, List.any_eq_true, falMatches, Listed]
  cases t <;> simp [AddressWithType.toPeerType, and_comm]

theorem isRpa_form (a : AddressWithType) : isRpa a = true ↔ RpaForm a := isRpa_iff a

theorem resolveTarget_iff (ah : Hash) (s : Le.State) (t r : AddressWithType) :
    resolveTarget ah s t r = true ↔ ResolvesToUs ah s r t := by
  simp only [resolveTarget, ResolvesToUs, Bool.and_eq_true, List.any_eq_true, beq_iff_eq,
    matchesIrk_iff]

theorem validateTarget_iff (ah : Hash) (cfg : Config) (s : Le.State) (t r : AddressWithType) :
    validateTarget ah cfg s t r = true ↔ OwnDeviceAddress cfg s t ∨ ResolvesToUs ah s r t := by
  rw [← isLocal_iff, ← resolveTarget_iff]
  unfold validateTarget
  split
  · rename_i h; simp [h]
  · rename_i h
    split
    · simp [h]
    · rename_i hr
      simp only [h, Bool.false_eq_true, false_or, false_iff, Bool.not_eq_true]
      cases ht : resolveTarget ah s t r with
      | false => rfl
      | true =>
        obtain ⟨-, e, -, -, h1, h2⟩ := (resolveTarget_iff ah s t r).mp ht
        exact absurd ((isRpa_iff t).mpr ⟨h1, h2.1⟩) hr

theorem scanAccepts_iff (ah : Hash) (cfg : Config) (s : Le.State) (d : Bool) (r t : AddressWithType) :
    scanAccepts ah cfg s d r t = true ↔ ScanAllows ah cfg s (d = true) r t := by
  unfold scanAccepts ScanAllows
  cases s.scanner.filterPolicy <;> cases d <;>
    simp [validateTarget_iff, falContains_iff, isLocal_iff, isRpa_form]

theorem scanAccepts_update (ah : Hash) (cfg : Config) (s : Le.State) (a : AddressWithType) (d : Bool)
    (r t : AddressWithType) :
    scanAccepts ah cfg (resolveUpdate ah s a) d r t = scanAccepts ah cfg s d r t := by
  obtain ⟨l, hl⟩ := resolveUpdate_frame ah s a
  have h1 := resolveTarget_update ah s a t r
  have h2 : isLocal cfg (resolveUpdate ah s a) t = isLocal cfg s t := by rw [hl]; rfl
  have h3 : falContains (resolveUpdate ah s a) r = falContains s r := by rw [hl]; rfl
  have h4 : (resolveUpdate ah s a).scanner = s.scanner := by rw [hl]
  unfold scanAccepts validateTarget
  rw [h1, h2, h3, h4]

theorem wantsDirected_update (ah : Hash) (s : Le.State) (a : AddressWithType) (d : Bool)
    (r t : AddressWithType) :
    wantsDirectedReport ah (resolveUpdate ah s a) d r t = wantsDirectedReport ah s d r t := by
  obtain ⟨l, hl⟩ := resolveUpdate_frame ah s a
  have h1 := resolveTarget_update ah s a t r
  have h4 : (resolveUpdate ah s a).scanner = s.scanner := by rw [hl]
  unfold wantsDirectedReport
  rw [h1, h4]

theorem identity_iff (ah : Hash) (s : Le.State) (a r : AddressWithType) :
    resolved ah s a = r ↔ Identity ah s a r := by
  have hm : a.type = .randomDevice → ∀ k, matchesIrk ah k a = true ↔ RpaOf ah k a.address :=
    fun h k => by rw [matchesIrk_iff]; exact ⟨fun x => x.2, fun x => ⟨h, x⟩⟩
  unfold resolved resolvePrivate Identity
  by_cases hr : isRpa a = true
  · have ht := ((isRpa_iff a).mp hr).1
    simp only [hr, Bool.true_eq_false, if_false]
    by_cases he : s.resolvingListEnabled = true
    · simp only [he, Bool.true_eq_false, if_false, ht, true_and, findResolving]
      cases hf : s.resolvingList.find? (fun e => matchesIrk ah e.peerIrk a) with
      | none =>
        rw [List.find?_eq_none] at hf
        have hn : ∀ e ∈ s.resolvingList, ¬ RpaOf ah e.peerIrk a.address := fun e he hx =>
          hf e he ((hm ht _).mpr hx)
        constructor
        · rintro rfl
          refine .inr ⟨?_, rfl⟩
          rintro ⟨e, he, hx⟩; exact hn e he hx
        · rintro (⟨bf, e, af, hl, hk, -, -⟩ | ⟨-, h⟩)
          · exact absurd hk (hn e (by rw [hl]; simp))
          · exact h.symm
      | some e =>
        obtain ⟨hk, as, bs, hl, hb⟩ := List.find?_eq_some_iff_append.mp hf
        have hk' := (hm ht _).mp hk
        constructor
        · rintro rfl
          refine .inl ⟨as, e, bs, hl, hk', ?_, rfl⟩
          intro x hx h
          have := hb x hx
          rw [(hm ht _).mpr h] at this
          cases this
        · rintro (⟨as', e', bs', hl', hk2, hb', rfl⟩ | ⟨h, -⟩)
          · have hf' : s.resolvingList.find? (fun e => matchesIrk ah e.peerIrk a) = some e' :=
              List.find?_eq_some_iff_append.mpr ⟨(hm ht _).mpr hk2, as', bs', hl',
                (fun x hx => by have := mt (hm ht _).mp (hb' x hx); simpa using this)⟩
            rw [hf] at hf'; cases hf'; rfl
          · exact absurd ⟨e, by rw [hl]; simp, hk'⟩ h
    · simp only [he, Bool.false_eq_true, if_true, false_and, not_false_eq_true, true_and,
        exists_const, Option.getD_none]
      constructor
      · rintro rfl; exact .inr rfl
      · rintro h
        have h' : r = a := by simpa using h
        exact h'.symm
  · have hn : ∀ k, a.type = .randomDevice → ¬ RpaOf ah k a.address := fun k ht h =>
      hr ((isRpa_iff a).mpr ⟨ht, h.1⟩)
    have hr' : isRpa a = false := by simpa using hr
    simp only [hr', if_true, Option.getD_some]
    constructor
    · rintro rfl
      exact .inr ⟨fun ⟨_, ht, e, _, hx⟩ => hn _ ht hx, rfl⟩
    · rintro (⟨bf, e, af, -, ht, hl, hk, -⟩ | ⟨-, h⟩)
      · exact absurd hk (hn _ ht)
      · exact h.symm

theorem phyAccepts_iff (cfg : Config) (s : Le.State) (p : ExtPdu) :
    phyAccepts cfg s p = true ↔ PhysUsable cfg s p := by
  unfold phyAccepts PhysUsable
  cases p.primary <;> cases p.secondary <;> simp

theorem notDuplicate_update (ah : Hash) (s : State) (a : AddressWithType) (p : Packet) :
    notDuplicate { s with le := resolveUpdate ah s.le a } p = notDuplicate s p := by
  obtain ⟨l, hl⟩ := resolveUpdate_frame ah s.le a
  simp only [notDuplicate, hl]

/-- The report of one fragment of an extended PDU. -/
def extReport (p : ExtPdu) (r : AddressWithType) (f : Bool × List UInt8) : ExtReport :=
  { connectable := p.connectable, scannable := p.scannable, directed := p.directed, scanResponse := false, legacy := false, address := r, primary := p.primary, secondary := p.secondary, sid := p.sid, interval := p.interval, direct := if p.directed then some p.target else none, complete := f.1, data := f.2 }

/-- Whether a legacy PDU is reported. -/
def reportsLegacy (ah : Hash) (cfg : Config) (s : State) (p : LegacyPdu) : Bool :=
  s.le.scanner.enable && scanAccepts ah cfg s.le p.type.directed (resolved ah s.le p.adv) p.target &&
    notDuplicate s (.legacyAdv p)

/-- Whether an extended PDU is reported. -/
def reportsExtended (ah : Hash) (cfg : Config) (s : State) (p : ExtPdu) : Bool :=
  s.le.scanner.enable && s.le.extendedInUse && phyAccepts cfg s.le p &&
    scanAccepts ah cfg s.le p.directed (resolved ah s.le p.adv) p.target && notDuplicate s (.extAdv p)

theorem scanExtended_out {ah : Hash} {cfg : Config} {rnd : Irk → Address} {now : Nat} {s : State}
    {p : ExtPdu} {x : State × List Out} (h : scanExtended ah cfg rnd now s p = .ok x) :
    ∃ o, (o = [] ∨ reportsExtended ah cfg s p = true ∧ ∃ own, o = [.send (.scan own p.adv)]) ∧
      x.2 = (if reportsExtended ah cfg s p then extReports p (resolved ah s.le p.adv) else []) ++ o := by
  simp only [scanExtended] at h
  simp only [reportsExtended]
  split at h
  · rename_i h1; cases h; exact ⟨[], .inl rfl, by simp [h1]⟩
  rename_i h1
  split at h
  · rename_i h2; cases h; exact ⟨[], .inl rfl, by simp [h2]⟩
  rename_i h2
  split at h
  · rename_i h3; cases h; exact ⟨[], .inl rfl, by simp [h3]⟩
  rename_i h3
  rw [scanAccepts_update] at h
  split at h
  · rename_i h4; cases h; exact ⟨[], .inl rfl, by simp [h4]⟩
  rename_i h4
  rw [notDuplicate_update] at h
  obtain ⟨q, hq, hx⟩ := Res.bind_eq_ok h
  cases hx
  simp only [Bool.not_eq_false] at h1 h2 h3 h4
  simp only [h1, h2, h3, h4, Bool.true_and]
  refine ⟨q.2, ?_, rfl⟩
  rcases scanRequest_cases hq with ⟨rfl, -⟩ | ⟨-, -, -, hd, own, l, -, rfl⟩
  · exact .inl rfl
  · exact .inr ⟨hd, own, rfl⟩

theorem scanLegacy_out {ah : Hash} {cfg : Config} {rnd : Irk → Address} {now : Nat} {s : State}
    {p : LegacyPdu} {x : State × List Out} (h : scanLegacy ah cfg rnd now s p = .ok x) :
    ∃ o, (o = [] ∨ reportsLegacy ah cfg s p = true ∧ ∃ own, o = [.send (.scan own p.adv)]) ∧
      x.2 = (if reportsLegacy ah cfg s p then legacyReports ah s.le p (resolved ah s.le p.adv) else []) ++ o := by
  simp only [scanLegacy] at h
  simp only [reportsLegacy]
  split at h
  · rename_i h1; cases h; exact ⟨[], .inl rfl, by simp [h1]⟩
  rename_i h1
  rw [scanAccepts_update] at h
  split at h
  · rename_i h4; cases h; exact ⟨[], .inl rfl, by simp [h4]⟩
  rename_i h4
  rw [notDuplicate_update] at h
  obtain ⟨q, hq, hx⟩ := Res.bind_eq_ok h
  cases hx
  simp only [Bool.not_eq_false] at h1 h4
  simp only [h1, h4, Bool.true_and]
  refine ⟨q.2, ?_, ?_⟩
  · rcases scanRequest_cases hq with ⟨rfl, -⟩ | ⟨-, -, -, hd, own, l, -, rfl⟩
    · exact .inl rfl
    · exact .inr ⟨hd, own, rfl⟩
  · have hl : legacyReports ah (resolveUpdate ah s.le p.adv) p (resolved ah s.le p.adv) =
        legacyReports ah s.le p (resolved ah s.le p.adv) := by
      obtain ⟨l, hl⟩ := resolveUpdate_frame ah s.le p.adv
      have h5 : (resolveUpdate ah s.le p.adv).legacyInUse = s.le.legacyInUse := by rw [hl]
      have h6 : (resolveUpdate ah s.le p.adv).extendedInUse = s.le.extendedInUse := by rw [hl]
      unfold legacyReports
      rw [wantsDirected_update, h5, h6]
    rw [hl]

theorem receive_ext_reports {ah : Hash} {cfg : Config} {rnd : Irk → Address} {now : Nat} {s : State}
    {p : ExtPdu} {x : State × List Out} (h : receive ah cfg rnd now s (.extAdv p) = .ok x) :
    extReportsOf x.2 = (if reportsExtended ah cfg s p then
      (fragments maxExtFragment p.data).map (extReport p (resolved ah s.le p.adv)) else []) ∧
    legacyReportsOf x.2 = [] := by
  obtain ⟨y, z, hy, hz, rfl⟩ := receive_extAdv h
  obtain ⟨o, ho, hy2⟩ := scanExtended_out hy
  have hn : extReportsOf o = [] ∧ legacyReportsOf o = [] := by
    rcases ho with rfl | ⟨-, own, rfl⟩ <;> exact ⟨rfl, rfl⟩
  have hc := connectExtended_noReports hz
  have hl : legacyReportsOf (extReports p (resolved ah s.le p.adv)) = [] := by
    simp [legacyReportsOf, extReports, List.filterMap_eq_nil_iff]
  have he : extReportsOf (extReports p (resolved ah s.le p.adv)) =
      (fragments maxExtFragment p.data).map (extReport p (resolved ah s.le p.adv)) :=
    extReportsOf_map _ _
  simp only [extReportsOf_append, legacyReportsOf_append, hc, hy2, hn, List.append_nil]
  split
  · exact ⟨he, hl⟩
  · exact ⟨rfl, rfl⟩

/-- The extended report of a legacy PDU. -/
def legacyExtReport (p : LegacyPdu) (r : AddressWithType) : ExtReport :=
  { connectable := p.type.connectable, scannable := p.type.scannable, directed := p.type.directed, scanResponse := false, legacy := true, address := r, primary := .le1m, secondary := .noPackets, sid := 0xff, interval := 0, direct := if p.type.directed then some p.target else none, complete := true, data := p.data }

theorem receive_legacy_reports {ah : Hash} {cfg : Config} {rnd : Irk → Address} {now : Nat} {s : State}
    {p : LegacyPdu} {x : State × List Out} (h : receive ah cfg rnd now s (.legacyAdv p) = .ok x) :
    ∃ z o, (o = [] ∨ ∃ own, o = [.send (.scan own p.adv)]) ∧
      (z = [] ∨ ∃ own q, z = [.send (.connect own p.adv q)]) ∧
      x.2 = (if reportsLegacy ah cfg s p then legacyReports ah s.le p (resolved ah s.le p.adv) else []) ++ o ++ z := by
  obtain ⟨y, z, hy, hz, rfl⟩ := receive_legacyAdv h
  obtain ⟨o, ho, hy2⟩ := scanLegacy_out hy
  refine ⟨z.2, o, ?_, ?_, ?_⟩
  · rcases ho with rfl | ⟨-, own, rfl⟩
    · exact .inl rfl
    · exact .inr ⟨own, rfl⟩
  · rcases connectLegacy_frame hz with ⟨l, rfl⟩ | ⟨l, own, -, -, -, rfl⟩
    · exact .inl rfl
    · exact .inr ⟨own, _, rfl⟩
  · simp only [hy2]

end Verif.Ll
