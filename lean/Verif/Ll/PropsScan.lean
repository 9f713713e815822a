import Verif.Ll.HistLemmas
import Verif.Ll.PropsSync
/-!
# C49: the scanner's filter, C50: duplicates
-/

namespace Verif.Ll
open Verif.Le

/-! ### C49 -/

/-- Some report of an advertising PDU is sent to the host. -/
def Reported (out : List Out) : Prop :=
  extReportsOf out ≠ [] ∨ legacyReportsOf out ≠ [] ∨ ∃ a d, .directedReport a d ∈ out

/-- The packet is a duplicate that the host does not want to see. -/
def Suppressed (s : State) (p : Packet) : Prop :=
  s.le.scanner.filterDuplicates ≠ .disabled ∧ p ∈ s.history

theorem notDuplicate_iff (s : State) (p : Packet) : notDuplicate s p = true ↔ ¬ Suppressed s p := by
  unfold notDuplicate Suppressed
  simp only [Bool.or_eq_true, beq_iff_eq, Bool.not_eq_true', List.contains_eq_mem, decide_eq_false_iff_not]
  by_cases h : s.le.scanner.filterDuplicates = .disabled <;> simp [h]

theorem fragments_ne_nil (n : Nat) (d : List UInt8) : fragments n d ≠ [] := by
  unfold fragments
  cases d.length <;> simp [fragmentLoop]

theorem allowed_iff {ah : Hash} {cfg : Config} {s : Le.State} {d : Bool} {a t : AddressWithType} :
    scanAccepts ah cfg s d (resolved ah s a) t = true ↔
      ∃ r, Identity ah s a r ∧ ScanAllows ah cfg s (d = true) r t := by
  rw [scanAccepts_iff]
  constructor
  · intro h; exact ⟨_, (identity_iff ah s a _).mp rfl, h⟩
  · rintro ⟨r, hr, h⟩
    rw [← identity_iff] at hr
    rw [hr]; exact h

/-- An extended advertising PDU is reported exactly if the controller scans with the
extended commands on the PDU's PHYs, the filter policy lets the PDU through, and it is
not a duplicate the host asked not to see. -/
theorem C49_extended {ah : Hash} {cfg : Config} {rnd : Irk → Address} {now : Nat} {s s' : State}
    {p : ExtPdu} {o : Obs} (h : step ah cfg s (.receive rnd now (.extAdv p)) = .ok (s', o)) :
    Reported o.out ↔
      s.le.scanner.enable = true ∧ s.le.extendedInUse = true ∧ PhysUsable cfg s.le p ∧
      (∃ r, Identity ah s.le p.adv r ∧ ScanAllows ah cfg s.le (p.directed = true) r p.target) ∧
      ¬ Suppressed s (.extAdv p) := by
  simp only [step] at h
  obtain ⟨x, hx, h⟩ := Res.bind_eq_ok h
  cases h
  obtain ⟨h1, h2⟩ := receive_ext_reports hx
  have h3 : ∀ a d, .directedReport a d ∉ x.2 := by
    intro a d hm
    obtain ⟨y, z, hy, hz, rfl⟩ := receive_extAdv hx
    obtain ⟨w, hw, ho⟩ := scanExtended_out hy
    rcases List.mem_append.mp hm with hm | hm
    · rw [ho] at hm
      rcases List.mem_append.mp hm with hm | hm
      · split at hm
        · simp [extReports] at hm
        · cases hm
      · rcases hw with rfl | ⟨-, own, rfl⟩ <;> simp at hm
    · rcases connectExtended_frame hz with ⟨l', rfl⟩ | ⟨l', own, -, -, -, rfl⟩ <;> simp at hm
  rw [← phyAccepts_iff, ← allowed_iff, ← notDuplicate_iff]
  have : Reported x.2 ↔ reportsExtended ah cfg s p = true := by
    unfold Reported
    rw [h1, h2]
    constructor
    · rintro (h | h | ⟨a, d, h⟩)
      · by_contra hc
        rw [if_neg hc] at h; exact h rfl
      · exact absurd rfl h
      · exact absurd h (h3 a d)
    · intro h
      left
      rw [if_pos h]
      simp [fragments_ne_nil]
  simp only [this, reportsExtended, Bool.and_eq_true]
  tauto

/-- A legacy advertising PDU is reported exactly if the controller scans, the filter
policy lets the PDU through, and it is not a duplicate the host asked not to see. -/
theorem C49_legacy {ah : Hash} {cfg : Config} {rnd : Irk → Address} {now : Nat} {s s' : State}
    {p : LegacyPdu} {o : Obs} (h : step ah cfg s (.receive rnd now (.legacyAdv p)) = .ok (s', o)) :
    Reported o.out ↔
      s.le.scanner.enable = true ∧ (s.le.legacyInUse = true ∨ s.le.extendedInUse = true) ∧
      (∃ r, Identity ah s.le p.adv r ∧ ScanAllows ah cfg s.le (p.type.directed = true) r p.target) ∧
      ¬ Suppressed s (.legacyAdv p) := by
  simp only [step] at h
  obtain ⟨x, hx, h⟩ := Res.bind_eq_ok h
  cases h
  obtain ⟨z, w, hw, hz, ho⟩ := receive_legacy_reports hx
  rw [← allowed_iff, ← notDuplicate_iff]
  have hext : extReportsOf (w ++ z) = [] ∧ legacyReportsOf (w ++ z) = [] ∧
      ∀ a d, .directedReport a d ∉ w ++ z := by
    rcases hw with rfl | ⟨own, rfl⟩ <;> rcases hz with rfl | ⟨own, q, rfl⟩ <;>
      exact ⟨rfl, rfl, by simp⟩
  have : Reported x.2 ↔
      reportsLegacy ah cfg s p = true ∧ (s.le.legacyInUse = true ∨ s.le.extendedInUse = true) := by
    rw [ho, List.append_assoc]
    unfold Reported
    simp only [extReportsOf_append, legacyReportsOf_append, hext.1, hext.2.1, List.append_nil, List.mem_append]
    by_cases hr : reportsLegacy ah cfg s p = true
    · rw [if_pos hr]
      unfold legacyReports
      generalize s.le.legacyInUse = lu
      generalize s.le.extendedInUse = eu
      generalize wantsDirectedReport ah s.le p.type.directed (resolved ah s.le p.adv) p.target = wd
      have h3 : ¬ ∃ a d, Out.directedReport a d ∈ w ∨ Out.directedReport a d ∈ z := by
        rintro ⟨a, d, hm⟩; exact hext.2.2 a d (List.mem_append.mpr hm)
      have h4 : ∃ a d, (a = resolved ah s.le p.adv ∧ d = p.target.address) ∨
          Out.directedReport a d ∈ w ∨ Out.directedReport a d ∈ z := ⟨_, _, .inl ⟨rfl, rfl⟩⟩
      cases lu <;> cases eu <;> cases wd <;>
        simp [hr, extReportsOf, legacyReportsOf] <;> first | exact h4 | simpa using h3
    · rw [if_neg hr]
      simp only [hr, Bool.false_eq_true, false_and, iff_false]
      rintro (h | h | ⟨a, d, h | h⟩)
      · exact h rfl
      · exact h rfl
      · cases h
      · exact hext.2.2 a d (List.mem_append.mpr h)
  simp only [this, reportsLegacy, Bool.and_eq_true]
  tauto

/-! ### C50 -/

/-- After a step that reported a packet with duplicate filtering on, the packet is
known. -/
theorem reported_known {ah : Hash} {cfg : Config} {rnd : Irk → Address} {now : Nat} {s : State}
    {p : Packet} {x : State × Obs} (hp : (∃ q, p = .legacyAdv q) ∨ ∃ q, p = .extAdv q)
    (h : step ah cfg s (.receive rnd now p) = .ok x) (hr : Reported x.2.out)
    (hd : s.le.scanner.filterDuplicates ≠ .disabled) : Known x.1 p s.le.scanner.filterDuplicates := by
  have h' := h
  simp only [step] at h'
  obtain ⟨y, hy, hx⟩ := Res.bind_eq_ok h'
  cases hx
  right
  refine ⟨by rw [(receive_scanner hy).1], hd, ?_⟩
  rcases hp with ⟨q, rfl⟩ | ⟨q, rfl⟩
  · obtain ⟨h1, h2, h3, h4⟩ := (C49_legacy h).mp hr
    obtain ⟨u, v, hu, hv, rfl⟩ := receive_legacyAdv hy
    have := (scanLegacy_history hu).2 (by
      rw [← allowed_iff] at h3
      rw [← notDuplicate_iff] at h4
      simp only [reportsLegacy, h1, h3, h4, Bool.and_self]) hd
    rcases connectLegacy_frame hv with ⟨l', rfl⟩ | ⟨l', own, -, -, -, rfl⟩ <;> exact this
  · obtain ⟨h1, h2, h3, h4, h5⟩ := (C49_extended h).mp hr
    obtain ⟨u, v, hu, hv, rfl⟩ := receive_extAdv hy
    have := (scanExtended_history hu).2 (by
      rw [← allowed_iff] at h4
      rw [← notDuplicate_iff] at h5
      rw [← phyAccepts_iff] at h3
      simp only [reportsExtended, h1, h2, h3, h4, h5, Bool.and_self]) hd
    rcases connectExtended_frame hv with ⟨l', rfl⟩ | ⟨l', own, -, -, -, rfl⟩ <;> exact this

theorem run_known {ah : Hash} {cfg : Config} {p : Packet} {fd : FilterDuplicates} (ops : List Op) :
    ∀ {s : State} {y : State × List Obs}, run ah cfg ops s = .ok y → (∀ o ∈ ops, ¬ StartsScan o) →
      (fd = .resetEachPeriod → ∀ now, Op.tick now ∉ ops) → Known s p fd → Known y.1 p fd := by
  induction ops with
  | nil => intro s y h _ _ hk; cases h; exact hk
  | cons o ops ih =>
    intro s y h ho ht hk
    simp only [run] at h
    obtain ⟨x, hx, h⟩ := Res.bind_eq_ok h
    obtain ⟨z, hz, h⟩ := Res.bind_eq_ok h
    cases h
    refine ih (y := z) hz (fun o ho' => ho o (List.mem_cons_of_mem _ ho'))
      (fun hf now hm => ht hf now (List.mem_cons_of_mem _ hm)) ?_
    refine step_known hx (ho o (List.mem_cons_self ..)) (fun hf now he => ?_) hk
    exact ht hf now (he ▸ List.mem_cons_self ..)

/-- With duplicate filtering, an advertising PDU that was reported is not reported
again, whatever happens, until the host starts scanning again; with a filter that is
reset in each period, until the end of the period, which only a timer tick brings. -/
theorem C50_no_duplicates {ah : Hash} {cfg : Config} {s s2 : State} {p : Packet}
    {rnd rnd' : Irk → Address} {now now' : Nat} {x y : State × Obs} {ops : List Op} {obs : List Obs}
    (hp : (∃ q, p = .legacyAdv q) ∨ ∃ q, p = .extAdv q)
    (hd : s.le.scanner.filterDuplicates ≠ .disabled)
    (h1 : step ah cfg s (.receive rnd now p) = .ok x) (hr : Reported x.2.out)
    (h2 : run ah cfg ops x.1 = .ok (s2, obs)) (ho : ∀ o ∈ ops, ¬ StartsScan o)
    (ht : s.le.scanner.filterDuplicates = .resetEachPeriod → ∀ t, Op.tick t ∉ ops)
    (h3 : step ah cfg s2 (.receive rnd' now' p) = .ok y) : ¬ Reported y.2.out := by
  have hk := run_known ops h2 ho ht (reported_known hp h1 hr hd)
  intro hy
  rcases hp with ⟨q, rfl⟩ | ⟨q, rfl⟩
  · obtain ⟨g1, -, -, g2⟩ := (C49_legacy h3).mp hy
    rcases hk with hk | ⟨k1, k2, k3⟩
    · rw [hk] at g1; cases g1
    · exact g2 ⟨by rw [k1]; exact k2, k3⟩
  · obtain ⟨g1, -, -, -, g2⟩ := (C49_extended h3).mp hy
    rcases hk with hk | ⟨k1, k2, k3⟩
    · rw [hk] at g1; cases g1
    · exact g2 ⟨by rw [k1]; exact k2, k3⟩

/-- Only received packets get into the history. -/
theorem step_history {ah : Hash} {cfg : Config} {s : State} {o : Op} {x : State × Obs}
    (h : step ah cfg s o = .ok x) {p : Packet} (hp : p ∈ x.1.history) :
    p ∈ s.history ∨ ∃ rnd now, o = .receive rnd now p := by
  have hrem : ∀ (s : State) (q : Packet), p ∈ (remember s q).history → p ∈ s.history ∨ p = q := by
    intro s q hm
    unfold remember at hm
    split at hm
    · exact .inl hm
    · rcases List.mem_cons.mp hm with hm | hm
      · exact .inr hm
      · exact .inl hm
  cases o with
  | cmd c =>
    simp only [step] at h
    obtain ⟨y, hy, h⟩ := Res.bind_eq_ok h
    cases h
    simp only [command] at hy
    split at hy
    · cases hy
    · split at hy
      · cases hy; cases hp
      · cases hy; exact .inl hp
  | receive rnd now q =>
    simp only [step] at h
    obtain ⟨y, hy, h⟩ := Res.bind_eq_ok h
    cases h
    have done : p ∈ s.history ∨ p = q → p ∈ s.history ∨ ∃ rnd' now', Op.receive rnd now q = .receive rnd' now' p := by
      rintro (hm | rfl)
      · exact .inl hm
      · exact .inr ⟨_, _, rfl⟩
    cases q with
    | legacyAdv q =>
      apply done
      obtain ⟨u, v, hu, hv, rfl⟩ := receive_legacyAdv hy
      have hp : p ∈ u.1.history := by
        rcases connectLegacy_frame hv with ⟨l', rfl⟩ | ⟨l', own, -, -, -, rfl⟩ <;> exact hp
      simp only [scanLegacy] at hu
      split at hu
      · cases hu; exact .inl hp
      split at hu
      · cases hu; exact .inl hp
      obtain ⟨w, hw, hx⟩ := Res.bind_eq_ok hu
      cases hx
      simp only [scanRequest_history hw] at hp
      have := hrem _ _ hp; exact this
    | extAdv q =>
      apply done
      obtain ⟨u, v, hu, hv, rfl⟩ := receive_extAdv hy
      have hp : p ∈ u.1.history := by
        rcases connectExtended_frame hv with ⟨l', rfl⟩ | ⟨l', own, -, -, -, rfl⟩ <;> exact hp
      simp only [scanExtended] at hu
      split at hu
      · cases hu; exact .inl hp
      split at hu
      · cases hu; exact .inl hp
      split at hu
      · cases hu; exact .inl hp
      split at hu
      · cases hu; exact .inl hp
      obtain ⟨w, hw, hx⟩ := Res.bind_eq_ok hu
      cases hx
      simp only [scanRequest_history hw] at hp
      have := hrem _ _ hp; exact this
    | periodic q =>
      simp only [receive, periodicPdu] at hy
      repeat' split at hy
      all_goals first | (cases hy; exact .inl hp) | cases hy
    | connect init adv q =>
      simp only [receive, incomingConnect] at hy
      obtain ⟨⟨b, s1, o1⟩, hl, hx⟩ := Res.bind_eq_ok hy
      rcases legacyConnect_cases hl with ⟨hb, ho, ⟨r, hs⟩, -⟩ | ⟨hb, -, -, -, -, z, hz, hx'⟩
      · simp only at hb ho hs
        subst hb ho hs
        simp only [Bool.false_eq_true, if_false] at hx
        rcases extConnectAll_cases _ hx with ⟨g1, ⟨r', g2⟩, -⟩ | ⟨k, a, s2, -, -, ⟨⟨r', hs2⟩, -⟩, z, hz, rfl⟩
        · rw [g2] at hp; exact .inl hp
        · obtain ⟨last, -, -, -, -, -, -, h5, -⟩ := handleConnection_cases hz
          simp only [h5, hs2] at hp; exact .inl hp
      · simp only at hb hx'
        subst hb
        simp only [if_true] at hx
        cases hx
        cases hx'
        obtain ⟨last, -, -, -, -, -, -, h5, -⟩ := handleConnection_cases hz
        simp only [h5] at hp; exact .inl hp
    | connectComplete init adv q =>
      simp only [receive, incomingConnectComplete] at hy
      split at hy
      · cases hy; exact .inl hp
      obtain ⟨z, hz, hx⟩ := Res.bind_eq_ok hy
      cases hx
      obtain ⟨last, -, -, -, -, -, -, h5, -⟩ := handleConnection_cases hz
      simp only [h5] at hp; exact .inl hp
    | scan sc adv => cases hy; exact .inl hp
    | scanResponse adv a d =>
      apply done
      cases hy
      simp only [scanResponse] at hp
      split at hp
      · exact .inl hp
      split at hp
      · exact .inl hp
      · have := hrem _ _ hp
        exact this
    | link src dst b =>
      simp only [receive, incomingLink] at hy
      split at hy
      · cases hy; exact .inl hp
      split at hy
      · cases hy; exact .inl hp
      · split at hy
        · cases hy
        · rename_i hr
          obtain ⟨h0, rfl⟩ := removeConnection_cases hr
          cases hy
          exact .inl hp
      · cases hy; exact .inl hp
  | tick now =>
    simp only [step] at h
    obtain ⟨y, hy, h⟩ := Res.bind_eq_ok h
    cases h
    simp only [tick] at hy
    split at hy
    · cases hy
    · cases hy
      left
      simp only [scanTimers] at hp
      split at hp
      · exact hp
      · simp only at hp
        split at hp
        · cases hp
        · exact hp
  | sendAcl a b c d =>
    simp only [step, handleAcl] at h
    obtain ⟨y, hy, h⟩ := Res.bind_eq_ok h
    cases h
    split at hy
    · cases hy
    split at hy <;> (cases hy; exact .inl hp)
  | disconnect a b c =>
    simp only [step, disconnect] at h
    obtain ⟨y, hy, h⟩ := Res.bind_eq_ok h
    cases h
    split at hy
    · cases hy; exact .inl hp
    split at hy
    · cases hy
    · rename_i hr
      obtain ⟨-, rfl⟩ := removeConnection_cases hr
      cases hy
      exact .inl hp
  | reset => cases h; cases hp

/-- A packet that was not received since the host started scanning is not suppressed:
together with C49, the first of several equal packets is reported. -/
theorem C50_first_not_suppressed {ah : Hash} {cfg : Config} {s s1 s2 : State} {o : Op}
    {ops : List Op} {out : List Out} {obs : List Obs} {p : Packet}
    (h1 : step ah cfg s o = .ok (s1, ⟨some .success, out⟩)) (ho : StartsScan o)
    (h2 : run ah cfg ops s1 = .ok (s2, obs)) (hn : ∀ rnd now, Op.receive rnd now p ∉ ops) :
    ¬ Suppressed s2 p := by
  have he : s1.history = [] := by
    cases o with
    | cmd c =>
      simp only [step] at h1
      obtain ⟨y, hy, h⟩ := Res.bind_eq_ok h1
      have hc : clearsScan c = true := by
        cases c <;> first | rfl | exact ho.elim
      simp only [command] at hy
      split at hy
      · cases hy
      · rename_i le e _
        simp only [hc, Bool.true_and] at hy
        by_cases hs : e = .success
        · subst hs; cases hy; cases h; rfl
        · rw [if_neg (by simp [hs])] at hy
          cases hy
          cases h
          exact absurd rfl hs
    | _ => exact ho.elim
  have key : ∀ (ops : List Op) (s : State) (y : State × List Obs), run ah cfg ops s = .ok y →
      (∀ rnd now, Op.receive rnd now p ∉ ops) → p ∈ y.1.history → p ∈ s.history := by
    intro ops
    induction ops with
    | nil => intro s y h _ hm; cases h; exact hm
    | cons o ops ih =>
      intro s y h hn hm
      simp only [run] at h
      obtain ⟨x, hx, h⟩ := Res.bind_eq_ok h
      obtain ⟨z, hz, h⟩ := Res.bind_eq_ok h
      cases h
      have := ih x.1 z hz (fun r n hm => hn r n (List.mem_cons_of_mem _ hm)) hm
      rcases step_history hx this with h | ⟨r, n, rfl⟩
      · exact h
      · exact absurd (List.mem_cons_self ..) (hn r n)
  rintro ⟨-, hm⟩
  have := key ops s1 _ h2 hn hm
  rw [he] at this
  cases this

end Verif.Ll
