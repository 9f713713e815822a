import Verif.Ll.AskStep
import Verif.Ll.PropsActive
import Verif.Ll.PropsInit
/-!
# Scanning and initiating as the host asked: reading the notes (C109)
-/

namespace Verif.Ll
open Verif.Le

theorem told_iff {out : List Out} : told out = true ↔ Reported out := by
  simp only [told, List.any_eq_true, Reported]
  constructor
  · rintro ⟨o, ho, h⟩
    cases o
    case directedReport a d => exact .inr (.inr ⟨a, d, ho⟩)
    case legacyReport a b c =>
      refine .inr (.inl fun hn => ?_)
      have := List.filterMap_eq_nil_iff.1 hn _ ho
      cases this
    case extReport r =>
      refine .inl fun hn => ?_
      have := List.filterMap_eq_nil_iff.1 hn _ ho
      cases this
    all_goals cases h
  · rintro (h | h | ⟨a, d, h⟩)
    · obtain ⟨x, hx⟩ := List.exists_mem_of_ne_nil _ h
      obtain ⟨o, ho, h⟩ := List.mem_filterMap.1 hx
      refine ⟨o, ho, ?_⟩
      cases o <;> first | rfl | cases h
    · obtain ⟨x, hx⟩ := List.exists_mem_of_ne_nil _ h
      obtain ⟨o, ho, h⟩ := List.mem_filterMap.1 hx
      refine ⟨o, ho, ?_⟩
      cases o <;> first | rfl | cases h
    · exact ⟨_, h, rfl⟩

theorem listed_iff {s : Le.State} {n : Ask} (h : TiedLists s n) (r : AddressWithType) : Listed s r ↔ n.listed r := by
  unfold Ask.listed Listed
  rw [← h.2, List.countP_pos_iff]
  obtain ⟨a, t⟩ := r
  refine exists_congr fun e => and_congr_right fun _ => ?_
  cases t <;> simp [onList, kindOf] <;> cases e.type <;> simp [sameDevice]

theorem ours_iff {cfg : Config} {s : Le.State} {n : Ask} (h : TiedLists s n) (r : AddressWithType) : OwnDeviceAddress cfg s r ↔ n.ours cfg r := by
  unfold Ask.ours OwnDeviceAddress
  rw [h.1]

theorem device_asPeer (e : RlEntry) : (asPeer e).device = peerDeviceAddress e.peerAddress e.peerType := by
  cases h : e.peerType <;> simp [asPeer, Peer.device, peerDeviceAddress, h]

theorem forUs_iff {ah : Hash} {s : Le.State} {n : Ask} (h : TiedLists s n) (r a : AddressWithType) : ResolvesToUs ah s r a ↔ n.forUs ah r a := by
  unfold Ask.forUs ResolvesToUs
  rw [h.5, ← h.3]
  constructor
  · rintro ⟨h1, e, he, h2, h3, h4⟩
    exact ⟨h1, h3, asPeer e, List.mem_map_of_mem he, by rw [device_asPeer]; exact h2, h4⟩
  · rintro ⟨h1, h2, e, he, h3, h4⟩
    obtain ⟨e, hm, rfl⟩ := List.mem_map.1 he
    exact ⟨h1, e, hm, by rw [← device_asPeer]; exact h3, h2, h4⟩

theorem identifies_iff {ah : Hash} {s : Le.State} {n : Ask} (h : TiedLists s n) (a r : AddressWithType) : Identity ah s a r ↔ n.identity ah a r := by
  unfold Identity Ask.identity
  rw [h.5, ← h.3]
  refine or_congr ?_ (and_congr_left fun _ => not_congr (and_congr_right fun _ => and_congr_right fun _ => ?_))
  · constructor
    · rintro ⟨b, e, c, h1, h2, h3, h4, h5, h6⟩
      refine ⟨b.map asPeer, asPeer e, c.map asPeer, h1, h2, by rw [h3]; simp, h4, ?_, by rw [device_asPeer]; exact h6⟩
      intro x hx
      obtain ⟨x, hm, rfl⟩ := List.mem_map.1 hx
      exact h5 x hm
    · rintro ⟨b, e, c, h1, h2, h3, h4, h5, h6⟩
      obtain ⟨b', c', hl, rfl, h7⟩ := List.map_eq_append_iff.1 h3
      obtain ⟨e', c'', rfl, rfl, rfl⟩ := List.map_eq_cons_iff.1 h7
      refine ⟨b', e', c'', h1, h2, hl, h4, fun x hx => h5 _ (List.mem_map_of_mem hx), by rw [← device_asPeer]; exact h6⟩
  · constructor
    · rintro ⟨e, he, h1⟩; exact ⟨asPeer e, List.mem_map_of_mem he, h1⟩
    · rintro ⟨e, he, h1⟩
      obtain ⟨e, hm, rfl⟩ := List.mem_map.1 he
      exact ⟨e, hm, h1⟩

theorem allows_iff {ah : Hash} {cfg : Config} {s : State} {n : Ask} (h : Tied s n) (d : Bool) (r t : AddressWithType) :
    ScanAllows ah cfg s.le (d = true) r t ↔ n.allows ah cfg d r t := by
  unfold ScanAllows Ask.allows
  rw [h.2.1]
  cases n.policy <;> simp only [ours_iff h.1, forUs_iff h.1, listed_iff h.1]

theorem tuned_iff {cfg : Config} {s : State} {n : Ask} (h : TiedScan s n) (p : ExtPdu) : PhysUsable cfg s.le p ↔ n.tuned cfg p := by
  unfold PhysUsable Ask.tuned
  rw [h.3, h.5]
  simp only [Option.isSome_iff_ne_none]

theorem ownFor_iff {cfg : Config} {rnd : Irk → Address} {s : Le.State} {n : Ask} (h : TiedLists s n) (r : AddressWithType) (t : OwnAddressType) (own : AddressWithType) :
    OwnFor cfg s rnd r t own ↔ n.ownFor cfg rnd r t own := by
  have hk : ∀ e : RlEntry, OwnFor.IsPeer e r ↔ ((asPeer e).address = r.address ∧ (asPeer e).type = kindOf r) := by
    intro e
    obtain ⟨a, t⟩ := r
    cases t <;> simp [OwnFor.IsPeer, asPeer, kindOf]
  have h1 : ∀ own, (∃ e ∈ s.resolvingList, OwnFor.IsPeer e r ∧ own = (⟨rnd e.localIrk, .randomDevice⟩ : AddressWithType)) ↔
      ∃ e ∈ n.peers, e.address = r.address ∧ e.type = kindOf r ∧ own = ⟨rnd e.localKey, .randomDevice⟩ := by
    intro own
    rw [← h.3]
    constructor
    · rintro ⟨e, he, h1, h2⟩
      exact ⟨asPeer e, List.mem_map_of_mem he, ((hk e).1 h1).1, ((hk e).1 h1).2, h2⟩
    · rintro ⟨e, he, h1, h2, h3⟩
      obtain ⟨e, hm, rfl⟩ := List.mem_map.1 he
      exact ⟨e, hm, (hk e).2 ⟨h1, h2⟩, h3⟩
  have h2 : (∀ e ∈ s.resolvingList, ¬ OwnFor.IsPeer e r) ↔ ∀ e ∈ n.peers, ¬ (e.address = r.address ∧ e.type = kindOf r) := by
    rw [← h.3]
    constructor
    · intro h1 e he
      obtain ⟨e, hm, rfl⟩ := List.mem_map.1 he
      exact fun h2 => h1 e hm ((hk e).2 h2)
    · intro h1 e he h2
      exact h1 _ (List.mem_map_of_mem he) ((hk e).1 h2)
  unfold OwnFor Ask.ownFor
  cases t <;> simp only [h1, h2, h.1]

theorem wants_iff {ah : Hash} {cfg : Config} {s : Le.State} {n : Ask} (h : TiedLists s n) {c : Call} (hc : CallOn s c) (d : Bool) (r t : AddressWithType) :
    InitiatorWants ah cfg s (d = true) r t ↔ n.wants ah cfg c d r t := by
  unfold InitiatorWants Ask.wants
  rw [hc.4, hc.5, hc.6]
  cases c.policy <;> simp only [ours_iff h, forUs_iff h, listed_iff h]

theorem suppressed_iff {s : State} {r : Scan} (h : ScanOn s r) (p : Packet) : Suppressed s p ↔ r.again p := by
  unfold Suppressed Scan.again
  rw [h.4]
  refine and_congr_right fun hf => ?_
  rw [h.6 hf]

theorem awaits_iff {s : State} {r : Scan} (h : ScanOn s r) (a : AddressWithType) : mapFind s.pending a = none ↔ r.awaits a = none := by
  rw [← h.7 a]
  simp

/-! ### The scan type on the LE Coded PHY -/

/-- The host gives parameters for the LE 2M PHY, which does not exist for scanning: see
`C23_2m_shifts_violated`. -/
def shifts : Op → Bool
  | .cmd (.setExtendedScanParameters _ _ phys _) => phys.toNat.testBit 1
  | _ => false

def CodedKind (s : State) (n : Ask) : Prop := ∀ t, n.coded = some t → s.le.scanner.leCoded.scanType = t

theorem coded_cmd {cfg : Config} {s : State} {c : Cmd} {x : State × Status} {n : Ask} (hC : CodedKind s n)
    (hs : shifts (.cmd c) = false) (h : command cfg s c = .ok x) : CodedKind x.1 (if x.2 = .success then n.accepted c else n) := by
  obtain ⟨le, hr, hx⟩ := command_cases h
  have hle : x.1.le = le := by rw [hx]; split <;> rfl
  unfold CodedKind
  rw [hle]
  by_cases hw : writesScanner c = true
  · cases c
    all_goals first | (cases hw; done) | skip
    case setScanParameters t i w own policy =>
      by_cases hok : x.2 = .success
      · rw [if_pos hok]; exact nofun
      · rw [if_neg hok]
        obtain ⟨hl, he⟩ := runCmd_ret_of hr
        have hs : le.scanner = s.le.scanner := by
          rw [he] at hok
          rw [hl]
          revert hok
          simp only [setScanParameters, withLegacy, checked, checkedThen]
          repeat' split
          all_goals first | (intro _; rfl) | (intro hok; exact absurd rfl hok)
        rw [hs]; exact hC
    case setExtendedScanParameters own policy phys params =>
      have hst : Le.step cfg s.le (.cmd (.setExtendedScanParameters own policy phys params)) = .ok le (some x.2) [] := by
        simp only [Le.step, hr]
      rcases extScan_cases (cfg := cfg) (s := s.le) (own := own) (policy := policy) (phys := phys) (params := params) with
        ⟨s', hs', h1, h2, -, -, h5, -, h7, h8, h9, h10⟩ | ⟨s', e, hs', he, ⟨y, hy⟩, -⟩
      · rw [hst] at hs'
        injection hs' with e1 e2
        subst e1
        injection e2 with e2
        rw [if_pos e2]
        intro t ht
        have ht : (listedFor phys.toNat params .leCoded).map (·.scanType) = some t := ht
        rw [listedFor_coded_no2m ⟨.passive, 0, 0⟩ h5 hs] at ht
        rw [h10]
        by_cases hb : phys.toNat.testBit 2 = true
        · rw [if_pos hb] at ht ⊢; cases ht; rfl
        · rw [if_neg hb] at ht; cases ht
      · rw [hst] at hs'
        injection hs' with e1 e2
        injection e2 with e2
        rw [e2, if_neg he, e1, hy]
        exact hC
    case setScanEnable b f =>
      obtain ⟨hl, he⟩ := runCmd_ret_of hr
      have hs : le.scanner.leCoded = s.le.scanner.leCoded := by
        rw [hl]
        simp only [setScanEnable, withLegacy, checked, checkedThen]
        repeat' split
        all_goals rfl
      rw [hs]
      split
      · cases b <;> exact hC
      · exact hC
    case setExtendedScanEnable now b f d p =>
      obtain ⟨hl, he⟩ := runCmd_ret_of hr
      have hs : le.scanner.leCoded = s.le.scanner.leCoded := by
        rw [hl]
        simp only [setExtendedScanEnable, withExtended, checked, checkedThen]
        repeat' split
        all_goals rfl
      rw [hs]
      split
      · cases b <;> exact hC
      · exact hC
  · rw [runCmd_scanner (by simpa using hw) hr]
    have : (if x.2 = .success then n.accepted c else n).coded = n.coded := by
      split
      · cases c <;> first | rfl | (exact absurd rfl hw)
      · rfl
    rw [this]
    exact hC

theorem coded_step {ah : Hash} {cfg : Config} {s : State} {o : Op} {x : State × Obs} {n : Ask}
    (hC : CodedKind s n) (hs : shifts o = false) (h : step ah cfg s o = .ok x) : CodedKind x.1 (n.note o x.2) := by
  cases o with
  | cmd c =>
    simp only [step] at h
    obtain ⟨y, hy, h⟩ := Res.bind_eq_ok h
    cases h
    have hn : n.note (.cmd c) ⟨some y.2, []⟩ = if y.2 = .success then n.accepted c else n := by
      simp only [Ask.note, Option.some.injEq]
    rw [hn]
    exact coded_cmd hC hs hy
  | receive rnd now q =>
    simp only [step] at h
    obtain ⟨y, hy, h⟩ := Res.bind_eq_ok h
    cases h
    intro t ht
    show y.1.le.scanner.leCoded.scanType = t
    rw [(receive_scanner hy).1]
    exact hC t ht
  | tick now =>
    simp only [step] at h
    obtain ⟨y, hy, h⟩ := Res.bind_eq_ok h
    cases h
    intro t ht
    have : y.1.le.scanner.leCoded = s.le.scanner.leCoded := by
      simp only [tick] at hy
      split at hy
      · cases hy
      rename_i le out ha
      cases hy
      have hsc : le.scanner = s.le.scanner := by
        simp only [advertising] at ha
        split at ha
        · cases ha
        · cases ha; rfl
      show (scanning now le).1.scanner.leCoded = _
      unfold scanning
      split
      · rw [hsc]
      · simp only [hsc]
        repeat' split
        all_goals rfl
    show y.1.le.scanner.leCoded.scanType = t
    rw [this]
    exact hC t ht
  | sendAcl a b c d =>
    simp only [step, handleAcl] at h
    obtain ⟨y, hy, h⟩ := Res.bind_eq_ok h
    cases h
    split at hy
    · cases hy
    split at hy <;> (cases hy; exact hC)
  | disconnect a b c =>
    simp only [step, disconnect] at h
    obtain ⟨y, hy, h⟩ := Res.bind_eq_ok h
    cases h
    split at hy
    · cases hy; exact hC
    split at hy
    · cases hy
    · rename_i hr
      obtain ⟨-, rfl⟩ := removeConnection_cases hr
      cases hy
      exact hC
  | reset => cases h; exact nofun

theorem coded_run {ah : Hash} {cfg : Config} : ∀ {ops : List Op} {s t : State} {n m : Ask},
    CodedKind s n → (∀ o ∈ ops, shifts o = false) → runAsk ah cfg ops s n = .ok (t, m) → CodedKind t m
  | [], _, _, _, _, hT, _, h => by cases h; exact hT
  | _ :: _, _, _, _, _, hT, hs, h => by
    simp only [runAsk] at h
    obtain ⟨y, hy, h⟩ := Res.bind_eq_ok h
    exact coded_run (coded_step hT (hs _ (.head _)) hy) (fun o ho => hs o (.tail _ ho)) h

theorem active_iff {s : State} {n : Ask} (h : TiedScan s n) (hc : CodedKind s n) : ActiveScan s.le ↔ n.active := by
  unfold ActiveScan Ask.active
  rw [h.3, h.5]
  have h4 := h.4
  unfold CodedKind at hc
  cases h1 : n.le1m <;> cases h2 : n.coded <;> simp only [h1, h2, Option.isSome_some, Option.isSome_none, Option.some.injEq] at h4 hc ⊢
  · simp
  · simp [hc _ rfl]
  · simp [h4 _ rfl]
  · simp [hc _ rfl, h4 _ rfl]

/-! ### Without a scan -/

theorem no_scan_legacy {ah : Hash} {cfg : Config} {rnd : Irk → Address} {now : Nat} {s : State} {p : LegacyPdu} {x : State × Obs}
    (h : step ah cfg s (.receive rnd now (.legacyAdv p)) = .ok x) (he : s.le.scanner.enable = false) : scanRequestsOf x.2.out = [] := by
  simp only [step] at h
  obtain ⟨y, hy, h⟩ := Res.bind_eq_ok h
  cases h
  obtain ⟨u, v, hu, hv, rfl⟩ := receive_legacyAdv hy
  have hv : scanRequestsOf v.2 = [] := by
    rcases connectLegacy_frame hv with ⟨l', rfl⟩ | ⟨l', own, -, -, -, rfl⟩ <;> rfl
  simp only [scanRequestsOf_append, hv, List.append_nil]
  rcases scanLegacy_requests hu with ⟨h1, -, h2⟩ | ⟨h1, h2, h3, h4, -, own, h5, h6⟩
  · exact h1
  · simp [reportsLegacy, he] at h1

theorem runAsk_exists {ah : Hash} {cfg : Config} : ∀ {ops : List Op} {s t : State} {obs : List Obs} (n : Ask),
    run ah cfg ops s = .ok (t, obs) → ∃ m, runAsk ah cfg ops s n = .ok (t, m)
  | [], _, _, _, n, h => by cases h; exact ⟨n, rfl⟩
  | o :: os, _, _, _, n, h => by
    simp only [run] at h
    obtain ⟨y, hy, h⟩ := Res.bind_eq_ok h
    obtain ⟨z, hz, h⟩ := Res.bind_eq_ok h
    cases h
    simp only [runAsk, hy, Res.bind]
    exact runAsk_exists _ hz

end Verif.Ll
