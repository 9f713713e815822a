import Verif.Ll.KindLemmas
/-! # C120: an advertising report says what was received -/
namespace Verif.Ll
open Verif.Le

/-- A legacy PDU that is reported: with the legacy commands in use there is one report, the directed one if the scanner cannot resolve the
target and the ordinary one otherwise; with the extended commands in use there is one extended report. They name the advertiser by its
identity and have the kind, the target and the data of the PDU. -/
theorem C120_legacy {ah : Hash} {cfg : Config} {rnd : Irk → Address} {now : Nat} {s s' : State} {p : LegacyPdu} {o : Obs}
    (h : step ah cfg s (.receive rnd now (.legacyAdv p)) = .ok (s', o)) (hr : Reported o.out) :
    ∃ r, Identity ah s.le p.adv r ∧
      extReportsOf o.out = (if s.le.extendedInUse then [legacyAsExtended p r] else []) ∧
      (s.le.legacyInUse = true → Unresolved ah s.le r p → directedReportsOf o.out = [(r, p.target.address)] ∧ legacyReportsOf o.out = []) ∧
      (s.le.legacyInUse = true → ¬Unresolved ah s.le r p → directedReportsOf o.out = [] ∧ legacyReportsOf o.out = [(.pdu p.type, r, p.data)]) ∧
      (s.le.legacyInUse = false → directedReportsOf o.out = [] ∧ legacyReportsOf o.out = []) := by
  simp only [step] at h
  obtain ⟨x, hx, h⟩ := Res.bind_eq_ok h
  cases h
  obtain ⟨z, w, hw, hz, ho⟩ := receive_legacy_reports hx
  refine ⟨resolved ah s.le p.adv, (identity_iff ah s.le p.adv _).mp rfl, ?_⟩
  have hw' : extReportsOf w = [] ∧ legacyReportsOf w = [] ∧ directedReportsOf w = [] := by
    rcases hw with rfl | ⟨own, rfl⟩ <;> exact ⟨rfl, rfl, rfl⟩
  have hz' : extReportsOf z = [] ∧ legacyReportsOf z = [] ∧ directedReportsOf z = [] := by
    rcases hz with rfl | ⟨own, q, rfl⟩ <;> exact ⟨rfl, rfl, rfl⟩
  have hrep : reportsLegacy ah cfg s p = true := by
    cases hc : reportsLegacy ah cfg s p with
    | true => rfl
    | false =>
      rw [hc] at ho
      unfold Reported at hr
      simp only [ho] at hr
      rcases hw with rfl | ⟨own, rfl⟩ <;> rcases hz with rfl | ⟨own', q, rfl⟩ <;> simp [extReportsOf, legacyReportsOf] at hr
  rw [if_pos hrep] at ho
  simp only [ho, extReportsOf_append, legacyReportsOf_append, directedReportsOf_append, hw', hz', List.append_nil]
  rw [← wantsDirected_iff, ← legacyExt_eq]
  unfold legacyReports
  generalize s.le.legacyInUse = lu
  generalize s.le.extendedInUse = eu
  generalize wantsDirectedReport ah s.le p.type.directed (resolved ah s.le p.adv) p.target = wd
  cases lu <;> cases eu <;> cases wd <;> simp <;> simp [extReportsOf, legacyReportsOf, directedReportsOf, legacyExtReport]

/-- An extended PDU that is reported: the reports are all of the advertiser's identity and have the kind, PHYs, set, interval and target of
the PDU; what they have of its data is C21. -/
theorem C120_extended {ah : Hash} {cfg : Config} {rnd : Irk → Address} {now : Nat} {s s' : State} {p : ExtPdu} {o : Obs}
    (h : step ah cfg s (.receive rnd now (.extAdv p)) = .ok (s', o)) :
    (∃ r, Identity ah s.le p.adv r ∧ ∀ x ∈ extReportsOf o.out, x = asExtended p r x.complete x.data) ∧ legacyReportsOf o.out = [] := by
  simp only [step] at h
  obtain ⟨x, hx, h⟩ := Res.bind_eq_ok h
  cases h
  obtain ⟨h1, h2⟩ := receive_ext_reports hx
  refine ⟨⟨resolved ah s.le p.adv, (identity_iff ah s.le p.adv _).mp rfl, fun y hy => ?_⟩, h2⟩
  rw [h1] at hy
  split at hy
  · obtain ⟨f, -, rfl⟩ := List.mem_map.mp hy
    rfl
  · cases hy

/-- A scan response that is reported, after any history: the reports are of the advertiser's identity and have the kind and the PHYs of the
scannable PDU because of which the last scan request was sent to it. -/
theorem C120_response {ah : Hash} {cfg : Config} {d : Option Address} {ops : List Op} {y : State × List Obs} (hrun : run ah cfg ops (initial d) = .ok y)
    {rnd : Irk → Address} {now : Nat} {s' : State} {adv : AddressWithType} {sc : Address} {data : List UInt8} {o : Obs}
    (h : step ah cfg y.1 (.receive rnd now (.scanResponse adv sc data)) = .ok (s', o)) (hr : extReportsOf o.out ≠ []) :
    ∃ q r, lastAsked adv none (ops.zip y.2) = some q ∧ q.adv = adv ∧ Identity ah y.1.le adv r ∧
      ∀ x ∈ extReportsOf o.out, x = asResponse q r x.complete x.data := by
  have hi := (identity_iff ah y.1.le adv _).mp rfl
  cases h
  simp only [scanResponse] at hr ⊢
  split at hr
  · exact absurd rfl hr
  rename_i he
  rw [if_neg he]
  split at hr
  · exact absurd rfl hr
  rename_i req hq
  have hf := run_req ops hrun (fun _ => none) (by intro a r hm; cases hm) adv req (mem_mapFind hq)
  refine ⟨_, _, hf, rfl, hi, fun x hx => ?_⟩
  simp only at hx
  split at hx
  · unfold responseReports at hx
    rw [extReportsOf_append, List.mem_append] at hx
    rcases hx with hx | hx
    · split at hx <;> cases hx
    · split at hx
      · rw [extReportsOf_map] at hx
        obtain ⟨f, -, rfl⟩ := List.mem_map.mp hx
        rfl
      · cases hx
  · cases hx

/-- An active scanner with the extended commands. -/
def extendedActive : List Op :=
  [.cmd (.setExtendedScanParameters .pub .acceptAll 1 [⟨.active, 0x10, 0x10⟩]), .cmd (.setExtendedScanEnable 0 true .disabled 0 0)]

/-- The scannable PDU of an advertising set on the 1M and the 2M PHY is reported as such; so is its scan response, with the kind and PHYs
of the PDU. The scan response that follows a legacy PDU is a legacy one. -/
example : (outputs (extendedActive ++
      [.receive (fun _ => 0) 0 (.extAdv ⟨⟨0xA, .publicDevice⟩, ⟨0, .publicDevice⟩, false, true, false, 3, .le1m, .le2m, 7, [1]⟩),
       .receive (fun _ => 0) 0 (.scanResponse ⟨0xA, .publicDevice⟩ Config.default.publicAddress [2]),
       .receive (fun _ => 0) 0 (.legacyAdv ⟨⟨0xA, .publicDevice⟩, ⟨0, .publicDevice⟩, .advInd, [3]⟩),
       .receive (fun _ => 0) 0 (.scanResponse ⟨0xA, .publicDevice⟩ Config.default.publicAddress [4])])).map extReportsOf =
    [[], [],
     [⟨false, true, false, false, false, ⟨0xA, .publicDevice⟩, .le1m, .le2m, 3, 7, none, true, [1]⟩],
     [⟨false, true, false, true, false, ⟨0xA, .publicDevice⟩, .le1m, .le2m, 0xff, 0, none, true, [2]⟩],
     [⟨true, true, false, false, true, ⟨0xA, .publicDevice⟩, .le1m, .noPackets, 0xff, 0, none, true, [3]⟩],
     [⟨true, true, false, true, true, ⟨0xA, .publicDevice⟩, .le1m, .noPackets, 0xff, 0, none, true, [4]⟩]] := by decide +kernel

/-- A PDU for a resolvable private address that the scanner cannot resolve is reported as directed, and another directed PDU in the ordinary
way; only if the scanner looks at the initiator's identity. -/
example : (outputs [.cmd (.setScanParameters .passive 0x10 0x10 .pub .checkInitiatorsIdentity), .cmd (.setScanEnable true false),
      .receive (fun _ => 0) 0 (.legacyAdv ⟨⟨0xA, .publicDevice⟩, ⟨0x400000000001, .randomDevice⟩, .advDirectInd, []⟩),
      .receive (fun _ => 0) 0 (.legacyAdv ⟨⟨0xA, .publicDevice⟩, ⟨Config.default.publicAddress, .publicDevice⟩, .advDirectInd, []⟩)]) =
    [[], [], [.directedReport ⟨0xA, .publicDevice⟩ 0x400000000001], [.legacyReport (.pdu .advDirectInd) ⟨0xA, .publicDevice⟩ []]] := by decide +kernel

end Verif.Ll
