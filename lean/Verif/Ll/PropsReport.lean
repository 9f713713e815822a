import Verif.Ll.SyncLemmas
/-!
# C21: advertising reports split large data without loss
-/

namespace Verif.Ll
open Verif.Le

/-- The reports of an extended advertising PDU: none, or a whole series of its data
in fragments of at most 229 bytes, all from the same device and set. -/
theorem C21_extended {ah : Hash} {cfg : Config} {rnd : Irk → Address} {now : Nat} {s s' : State}
    {p : ExtPdu} {o : Obs} (h : step ah cfg s (.receive rnd now (.extAdv p)) = .ok (s', o)) :
    extReportsOf o.out = [] ∨
    (WholeSeries 229 p.data ((extReportsOf o.out).map (fun r => (r.complete, r.data))) ∧
      ∃ from_, Identity ah s.le p.adv from_ ∧ ∀ r ∈ extReportsOf o.out,
        r.address = from_ ∧ r.sid = p.sid ∧ r.legacy = false ∧ r.scanResponse = false ∧
        r.connectable = p.connectable ∧ r.scannable = p.scannable ∧ r.directed = p.directed) := by
  simp only [step] at h
  obtain ⟨x, hx, h⟩ := Res.bind_eq_ok h
  cases h
  have hr := (receive_ext_reports hx).1
  simp only
  split at hr
  · right
    rw [hr]
    refine ⟨?_, resolved ah s.le p.adv, (identity_iff ah s.le p.adv _).mp rfl, ?_⟩
    · have := fragments_whole maxExtFragment (by decide) p.data
      simpa [List.map_map, Function.comp_def, extReport, maxExtFragment] using this
    · intro r hr
      obtain ⟨f, -, rfl⟩ := List.mem_map.mp hr
      exact ⟨rfl, rfl, rfl, rfl, rfl, rfl, rfl⟩
  · exact .inl hr

/-- A legacy PDU gives at most one extended report and one legacy report, with all of
its data and marked complete. -/
theorem C21_legacy {ah : Hash} {cfg : Config} {rnd : Irk → Address} {now : Nat} {s s' : State}
    {p : LegacyPdu} {o : Obs} (h : step ah cfg s (.receive rnd now (.legacyAdv p)) = .ok (s', o)) :
    (extReportsOf o.out = [] ∨ ∃ r, extReportsOf o.out = [r] ∧ r.data = p.data ∧ r.complete = true ∧
      r.legacy = true ∧ Identity ah s.le p.adv r.address) ∧
    (legacyReportsOf o.out = [] ∨ ∃ a, legacyReportsOf o.out = [(.pdu p.type, a, p.data)] ∧
      Identity ah s.le p.adv a) := by
  simp only [step] at h
  obtain ⟨x, hx, h⟩ := Res.bind_eq_ok h
  cases h
  obtain ⟨z, w, hw, hz, ho⟩ := receive_legacy_reports hx
  have hi := (identity_iff ah s.le p.adv _).mp rfl
  have hw' : extReportsOf w = [] ∧ legacyReportsOf w = [] := by
    rcases hw with rfl | ⟨own, rfl⟩ <;> exact ⟨rfl, rfl⟩
  have hz' : extReportsOf z = [] ∧ legacyReportsOf z = [] := by
    rcases hz with rfl | ⟨own, q, rfl⟩ <;> exact ⟨rfl, rfl⟩
  simp only [ho, extReportsOf_append, legacyReportsOf_append, hw', hz', List.append_nil]
  split
  · unfold legacyReports
    generalize s.le.legacyInUse = lu
    generalize s.le.extendedInUse = eu
    generalize wantsDirectedReport ah s.le p.type.directed (resolved ah s.le p.adv) p.target = wd
    constructor
    · cases eu
      · left; cases lu <;> cases wd <;> rfl
      · right
        refine ⟨legacyExtReport p (resolved ah s.le p.adv), ?_, rfl, rfl, rfl, hi⟩
        cases lu <;> cases wd <;> rfl
    · cases lu
      · left; cases eu <;> cases wd <;> rfl
      · cases wd
        · right; exact ⟨resolved ah s.le p.adv, by cases eu <;> rfl, hi⟩
        · left; cases eu <;> rfl
  · exact ⟨.inl rfl, .inl rfl⟩

/-- The reports of a scan response: none, or a whole series. -/
theorem C21_scan_response {ah : Hash} {cfg : Config} {rnd : Irk → Address} {now : Nat} {s s' : State}
    {adv : AddressWithType} {sc : Address} {d : List UInt8} {o : Obs}
    (h : step ah cfg s (.receive rnd now (.scanResponse adv sc d)) = .ok (s', o)) :
    (extReportsOf o.out = [] ∨
      WholeSeries 229 d ((extReportsOf o.out).map (fun r => (r.complete, r.data))) ∧
      ∃ from_, Identity ah s.le adv from_ ∧ ∀ r ∈ extReportsOf o.out,
        r.address = from_ ∧ r.scanResponse = true) ∧
    (legacyReportsOf o.out = [] ∨ ∃ a, legacyReportsOf o.out = [(.scanResponse, a, d)] ∧
      Identity ah s.le adv a) := by
  have hi := (identity_iff ah s.le adv _).mp rfl
  cases h
  simp only [scanResponse]
  split
  · exact ⟨.inl rfl, .inl rfl⟩
  split
  · exact ⟨.inl rfl, .inl rfl⟩
  · rename_i req _
    simp only
    split
    · unfold responseReports
      rw [extReportsOf_append, legacyReportsOf_append]
      generalize (resolveUpdate ah s.le adv).legacyInUse = lu
      generalize (resolveUpdate ah s.le adv).extendedInUse = eu
      have h1 : ∀ (f : Bool × List UInt8 → ExtReport) (l : List (Bool × List UInt8)),
          legacyReportsOf (l.map (fun x => .extReport (f x))) = [] := by
        intro f l; simp [legacyReportsOf, List.filterMap_eq_nil_iff]
      constructor
      · cases eu
        · left; cases lu <;> rfl
        · right
          have h2 : extReportsOf (if lu = true then [Out.legacyReport .scanResponse (resolved ah s.le adv) d] else []) = [] := by
            cases lu <;> rfl
          rw [h2, if_pos rfl, extReportsOf_map, List.nil_append]
          refine ⟨?_, resolved ah s.le adv, hi, ?_⟩
          · have := fragments_whole maxExtFragment (by decide) d
            simpa [List.map_map, Function.comp_def, maxExtFragment] using this
          · intro r hr
            obtain ⟨f, -, rfl⟩ := List.mem_map.mp hr
            exact ⟨rfl, rfl⟩
      · cases eu
        · cases lu
          · exact .inl rfl
          · exact .inr ⟨_, rfl, hi⟩
        · rw [if_pos rfl, h1, List.append_nil]
          cases lu
          · exact .inl rfl
          · exact .inr ⟨_, rfl, hi⟩
    · exact ⟨.inl rfl, .inl rfl⟩

theorem periodicReportsOf_flatMap (k : Nat) (fr : List (Bool × List UInt8))
    (l : List (Nat × Synchronized)) (hn : (l.map (·.1)).Nodup) :
    periodicReportsOf k (l.flatMap (fun x => fr.map (fun f => .periodicReport x.1 f.1 f.2))) =
      if k ∈ l.map (·.1) then fr else [] := by
  have hone : ∀ h, periodicReportsOf k (fr.map (fun f => .periodicReport h f.1 f.2)) =
      if h = k then fr else [] := by
    intro h
    induction fr with
    | nil => simp [periodicReportsOf]
    | cons a fr ih =>
      simp only [periodicReportsOf, List.map_cons, List.filterMap_cons] at ih ⊢
      by_cases hk : h = k
      · simp only [hk, if_true] at ih ⊢; rw [ih]
      · simp only [hk, if_false] at ih ⊢; rw [ih]
  induction l with
  | nil => rfl
  | cons x l ih =>
    simp only [List.map_cons, List.nodup_cons] at hn
    have happ : ∀ a b, periodicReportsOf k (a ++ b) = periodicReportsOf k a ++ periodicReportsOf k b := by
      intro a b; simp [periodicReportsOf]
    rw [List.flatMap_cons, happ, hone, ih hn.2]
    by_cases hk : x.1 = k
    · subst hk
      simp [hn.1]
    · rw [if_neg hk, List.nil_append]
      have : (k ∈ (x :: l).map (·.1)) ↔ k ∈ l.map (·.1) := by
        simp only [List.map_cons, List.mem_cons]
        exact ⟨fun h => h.resolve_left (fun e => hk e.symm), .inr⟩
      simp only [this]

/-- The reports of a periodic advertising PDU: for every handle of a synchronization,
none, or a whole series in fragments of at most 247 bytes. No other handle is
reported. -/
theorem C21_periodic {ah : Hash} {cfg : Config} {rnd : Irk → Address} {now : Nat} {s s' : State}
    {p : PeriodicPdu} {o : Obs} (hs : Reachable ah cfg s)
    (h : step ah cfg s (.receive rnd now (.periodic p)) = .ok (s', o)) (k : Nat) :
    periodicReportsOf k o.out = [] ∨
    (WholeSeries 247 p.data (periodicReportsOf k o.out) ∧
      ∃ y, mapFind s.le.synchronized k = some y ∧ y.advertiser.sid = p.sid ∧
        ∃ r, Identity ah s.le p.adv r ∧ y.advertiser.address = r.address ∧
          y.advertiser.type = r.toPeerType) := by
  obtain ⟨r, hr⟩ := resolveUpdate_frame ah s.le p.adv
  have hn := (syncKeys_nodup hs).1
  simp only [step, receive, periodicPdu] at h
  obtain ⟨x, hx, h⟩ := Res.bind_eq_ok h
  cases h
  split at hx
  · cases hx; exact .inl rfl
  split at hx
  · cases hx; exact .inl rfl
  split at hx
  · split at hx
    · cases hx; exact .inl rfl
    · split at hx
      · cases hx
      · cases hx; exact .inl rfl
  · cases hx
    have hsy : (resolveUpdate ah s.le p.adv).synchronized = s.le.synchronized := by rw [hr]
    simp only [hsy]
    rw [periodicReportsOf_flatMap _ _ _ (hn.sublist ((List.filter_sublist).map _))]
    split
    · right
      rename_i hk
      refine ⟨fragments_whole maxPeriodicFragment (by decide) p.data, ?_⟩
      obtain ⟨⟨k', y⟩, hy, rfl⟩ := List.mem_map.mp hk
      obtain ⟨hy1, hy2⟩ := List.mem_filter.mp hy
      simp only [beq_iff_eq] at hy2
      exact ⟨y, mapFind_mem hn hy1, by rw [hy2], _, (identity_iff ah s.le p.adv _).mp rfl,
        by rw [hy2], by rw [hy2]⟩
    · exact .inl rfl

/-- An advertiser the host synchronized with is reported, unless the packet
establishes another synchronization. -/
theorem C21_periodic_delivered {ah : Hash} {cfg : Config} {rnd : Irk → Address} {now : Nat}
    {s s' : State} {p : PeriodicPdu} {o : Obs} (hs : Reachable ah cfg s)
    (h : step ah cfg s (.receive rnd now (.periodic p)) = .ok (s', o)) {k : Nat} {y : Synchronized}
    (hy : mapFind s.le.synchronized k = some y) {r : AddressWithType} (hr : Identity ah s.le p.adv r)
    (ha : y.advertiser = ⟨r.toPeerType, r.address, p.sid⟩)
    (hen : s.le.scanner.enable = true) (hx : s.le.extendedInUse = true)
    (hno : s.le.synchronizing = none) :
    WholeSeries 247 p.data (periodicReportsOf k o.out) := by
  obtain ⟨l, hl⟩ := resolveUpdate_frame ah s.le p.adv
  have hn := (syncKeys_nodup hs).1
  have hr' := (identity_iff ah s.le p.adv r).mpr hr
  have hm : matchesSynchronizing (resolveUpdate ah s.le p.adv)
      ⟨r.toPeerType, r.address, p.sid⟩ = false := by
    rw [resolveUpdate_matches]; simp [matchesSynchronizing, hno]
  simp only [step, receive, periodicPdu, hen, hx, hr', hm, Bool.true_eq_false, if_false,
    Res.bind_ok, Bool.false_eq_true] at h
  cases h
  have hsy : (resolveUpdate ah s.le p.adv).synchronized = s.le.synchronized := by rw [hl]
  simp only [hsy]
  rw [periodicReportsOf_flatMap _ _ _ (hn.sublist ((List.filter_sublist).map _)), if_pos]
  · exact fragments_whole maxPeriodicFragment (by decide) p.data
  · refine List.mem_map.mpr ⟨(k, y), List.mem_filter.mpr ⟨Le.mapFind_mem hy, ?_⟩, rfl⟩
    simp [ha]

/-! ### The statements are about something -/

/-- A scanner that reports extended PDUs. -/
def scanningState : State :=
  { le := { extendedInUse := true, scanner := { enable := true, le1m := { enabled := true } } } }

/-- A PDU of 500 bytes. -/
def bigPdu : ExtPdu :=
  ⟨⟨5, .publicDevice⟩, ⟨0, .publicDevice⟩, false, false, false, 3, .le1m, .le1m, 0, List.replicate 500 7⟩

set_option maxRecDepth 20000 in
/-- It takes three reports. -/
example : (match receive (fun _ _ => 0) Config.default (fun _ => 0) 0 scanningState (.extAdv bigPdu) with
    | .ok x => (extReportsOf x.2).map (fun r => (r.complete, r.data.length))
    | _ => []) = [(false, 229), (false, 229), (true, 42)] := by decide +kernel

set_option maxRecDepth 20000 in
/-- An empty PDU takes one. -/
example : (match receive (fun _ _ => 0) Config.default (fun _ => 0) 0 scanningState
      (.extAdv { bigPdu with data := [] }) with
    | .ok x => (extReportsOf x.2).map (fun r => (r.complete, r.data.length))
    | _ => []) = [(true, 0)] := by decide +kernel

end Verif.Ll
