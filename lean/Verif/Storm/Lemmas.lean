import Verif.Storm.Spec
import Verif.Ll.TwoLemmas
/-! # Helper lemmas for C122 -/
namespace Verif.Storm
open Verif

/-! ### Ranks -/

/-- One element of a list is replaced by smaller ones. -/
def Less (l' l : List Nat) : Prop := ∃ a x b ys, l = a ++ x :: b ∧ l' = a ++ b ++ ys ∧ ∀ y ∈ ys, y < x

theorem less_acc (K : Nat) : ∀ l : List Nat, (∀ x ∈ l, x < K) → Acc Less l := by
  induction K with
  | zero =>
    intro l hl
    refine ⟨_, ?_⟩
    rintro l' ⟨a, x, b, ys, rfl, -, -⟩
    exact absurd (hl x (by simp)) (by omega)
  | succ K ih =>
    have key : ∀ m l, l.countP (· == K) = m → (∀ x ∈ l, x < K + 1) → Acc Less l := by
      intro m
      induction m using Nat.strongRecOn with
      | ind m ihm =>
        intro l hm hl
        have hf : Acc Less (l.filter (· < K)) := ih _ (fun x hx => by simpa using (List.mem_filter.1 hx).2)
        generalize he : l.filter (· < K) = f at hf
        induction hf generalizing l with
        | intro f _ ihf =>
          refine ⟨_, ?_⟩
          rintro l' ⟨a, x, b, ys, rfl, rfl, hy⟩
          have hx : x < K + 1 := hl x (by simp)
          have hl' : ∀ z ∈ a ++ b ++ ys, z < K + 1 := by
            intro z hz
            simp only [List.mem_append] at hz
            rcases hz with (hz | hz) | hz
            · exact hl z (by simp [hz])
            · exact hl z (by simp [hz])
            · exact Nat.lt_trans (hy z hz) hx
          have hc : ys.countP (· == K) = 0 := by
            rw [List.countP_eq_zero]
            intro y h
            have := hy y h
            simp only [beq_iff_eq]
            omega
          by_cases hk : x = K
          · refine ihm _ ?_ _ rfl hl'
            rw [← hm]
            simp only [List.countP_append, List.countP_cons, hc, hk, beq_self_eq_true, if_true]
            omega
          · refine ihf _ ?_ _ ?_ hl' rfl
            · rw [← he]
              have hys : ys.filter (· < K) = ys := by
                rw [List.filter_eq_self]
                intro y h
                have := hy y h
                simp only [decide_eq_true_eq]
                omega
              refine ⟨a.filter (· < K), x, b.filter (· < K), ys, ?_, ?_, hy⟩
              · rw [List.filter_append, List.filter_cons_of_pos (by simp only [decide_eq_true_eq]; omega)]
              · rw [List.filter_append, List.filter_append, hys]
            · rw [← hm]
              simp only [List.countP_append, List.countP_cons, hc]
              rw [if_neg (by simpa using hk)]
              omega
    exact fun l => key _ l rfl

/-- A list with a bound. -/
theorem less_wf : WellFounded Less := ⟨fun l => by
  refine less_acc (l.foldr (fun x m => max (x + 1) m) 0) l ?_
  induction l with
  | nil => simp
  | cons a t ih =>
    intro x hx
    simp only [List.foldr_cons]
    rcases List.mem_cons.1 hx with rfl | hx
    · omega
    · have := ih x hx; omega⟩

/-- How long a packet can be answered. -/
def rank : Heard → Nat
  | .le (.legacyAdv _) => 2
  | .le (.extAdv _) => 2
  | .le (.scan ..) => 1
  | .le (.connect ..) => 1
  | .link (.phyReq ..) => 2
  | .link (.phyRsp ..) => 1
  | .link .featReq => 1
  | .link .verReq => 1
  | .sub (.subrateReq ..) => 1
  | .sub (.paramReq ..) => 1
  | .cs (.capsReq _) => 1
  | .cs .faeReq => 1
  | .cs (.configReq ..) => 1
  | .cs .secReq => 1
  | .cs (.csReq ..) => 2
  | .cs (.csRsp ..) => 1
  | .cs (.termReq ..) => 1
  | .iso .cisRsp => 1
  | .iso (.rejectExtInd ..) => 1
  | .br _ _ (.page ..) => 1
  | .br _ _ .roleReq => 1
  | .br _ _ (.scoReq ..) => 1
  | .br _ _ .ping => 1
  | .br _ _ (.inquiry ..) => 1
  | .br _ _ .nameReq => 1
  | .br _ _ .hostFeaturesReq => 1
  | .br _ _ .featuresReq => 1
  | .br _ _ (.extReq ..) => 1
  | .br _ _ .versionReq => 1
  | _ => 0

theorem Causes.rank {p q : Heard} (h : Causes p q) : rank q < rank p := by
  cases h <;> simp [Storm.rank]

/-! ### What the controllers send -/

section
open Ll Le

theorem legacyReports_send (ah : Hash) (s : Le.State) (p : LegacyPdu) (r : AddressWithType) (q : Packet) : .send q ∉ legacyReports ah s p r := by
  unfold legacyReports
  generalize s.legacyInUse = lu
  generalize s.extendedInUse = eu
  generalize wantsDirectedReport ah s p.type.directed r p.target = wd
  cases lu <;> cases eu <;> cases wd <;> simp

theorem extReports_send (p : ExtPdu) (r : AddressWithType) (q : Packet) : .send q ∉ extReports p r := by
  simp [extReports]

theorem handleConnection_send {s : Ll.State} {c : LeConn} {ch : Bool} {x : Nat × Ll.State × List Out} (h : handleConnection s c ch = .ok x) (q : Packet) :
    .send q ∉ x.2.2 := by
  unfold handleConnection at h
  split at h
  · cases h
  · split at h
    · cases h
    · cases h
      cases ch <;> simp

/-- The packets among the outputs. -/
def sends (l : List Out) : List Heard := l.filterMap (fun | .send q => some (.le q) | _ => none)

theorem sends_append (a b : List Out) : sends (a ++ b) = sends a ++ sends b := List.filterMap_append

theorem sends_nil {l : List Out} (h : ∀ q, .send q ∉ l) : sends l = [] := by
  refine List.filterMap_eq_nil_iff.2 fun o ho => ?_
  split
  · exact absurd ho (h _)
  · rfl

theorem sends_length (l : List Out) : (sends l).length ≤ l.length := List.length_filterMap_le ..

theorem receive_few {ah : Hash} {cfg : Config} {rnd : Irk → Address} {now : Nat} {s : Ll.State} {p : Packet} {y : Ll.State × List Out}
    (hy : receive ah cfg rnd now s p = .ok y) :
    match p with
    | .legacyAdv _ => (sends y.2).length ≤ 2
    | .extAdv _ => (sends y.2).length ≤ 2
    | .connect .. => (sends y.2).length ≤ 1
    | _ => True := by
  cases p with
  | legacyAdv p =>
    obtain ⟨u, v, hu, hv, rfl⟩ := receive_legacyAdv hy
    obtain ⟨w, hw, ho⟩ := scanLegacy_out hu
    have h1 : (sends u.2).length ≤ 1 := by
      rw [ho, sends_append]
      have h0 : sends (if reportsLegacy ah cfg s p then legacyReports ah s.le p (resolved ah s.le p.adv) else []) = [] := by
        refine sends_nil fun q hq => ?_
        split at hq
        · exact absurd hq (legacyReports_send _ _ _ _ _)
        · cases hq
      rw [h0]
      rcases hw with rfl | ⟨-, own, rfl⟩
      · exact Nat.zero_le _
      · exact Nat.le_refl _
    have h2 : (sends v.2).length ≤ 1 := by
      rcases connectLegacy_frame hv with ⟨l', rfl⟩ | ⟨l', own, -, g1, g2, rfl⟩
      · exact Nat.zero_le _
      · exact Nat.le_refl _
    simp only [sends_append, List.length_append]
    omega
  | extAdv p =>
    obtain ⟨u, v, hu, hv, rfl⟩ := receive_extAdv hy
    obtain ⟨w, hw, ho⟩ := scanExtended_out hu
    have h1 : (sends u.2).length ≤ 1 := by
      rw [ho, sends_append]
      have h0 : sends (if reportsExtended ah cfg s p then extReports p (resolved ah s.le p.adv) else []) = [] := by
        refine sends_nil fun q hq => ?_
        split at hq
        · exact absurd hq (extReports_send _ _ _)
        · cases hq
      rw [h0]
      rcases hw with rfl | ⟨-, own, rfl⟩
      · exact Nat.zero_le _
      · exact Nat.le_refl _
    have h2 : (sends v.2).length ≤ 1 := by
      rcases connectExtended_frame hv with ⟨l', rfl⟩ | ⟨l', own, -, g1, g2, rfl⟩
      · exact Nat.zero_le _
      · exact Nat.le_refl _
    simp only [sends_append, List.length_append]
    omega
  | connect init adv q' =>
    simp only [receive, incomingConnect] at hy
    obtain ⟨⟨b, s1, o1⟩, hl, hx⟩ := Res.bind_eq_ok hy
    rcases legacyConnect_cases hl with ⟨hb, ho, ⟨r, hs⟩, -⟩ | ⟨hb, -, -, -, -, z, hz, hx'⟩
    · simp only at hb ho hs
      subst hb ho hs
      simp only [Bool.false_eq_true, if_false] at hx
      rcases extConnectAll_cases _ hx with ⟨g1, -, -⟩ | ⟨k, a, s2, -, -, -, z, hz, rfl⟩
      · simp only [g1]; exact Nat.zero_le _
      · simp only [sends_append, sends_nil (handleConnection_send hz)]
        exact Nat.le_refl _
    · simp only at hb hx'
      subst hb
      simp only [if_true] at hx
      cases hx
      cases hx'
      simp only [sends_append, sends_nil (handleConnection_send hz)]
      exact Nat.le_refl _
  | _ => trivial

theorem receive_causes {ah : Hash} {cfg : Config} {rnd : Irk → Address} {now : Nat} {s : Ll.State} {p : Packet} {y : Ll.State × List Out}
    (hy : receive ah cfg rnd now s p = .ok y) {q : Packet} (hq : .send q ∈ y.2) : Causes (.le p) (.le q) := by
  cases p with
  | legacyAdv p =>
    obtain ⟨u, v, hu, hv, rfl⟩ := receive_legacyAdv hy
    obtain ⟨w, hw, ho⟩ := scanLegacy_out hu
    simp only [List.mem_append] at hq
    rcases hq with hq | hq
    · rw [ho, List.mem_append] at hq
      rcases hq with hq | hq
      · split at hq
        · exact absurd hq (legacyReports_send _ _ _ _ _)
        · cases hq
      · rcases hw with rfl | ⟨-, own, rfl⟩
        · cases hq
        · cases List.mem_singleton.1 hq
          exact .scan p own
    · rcases connectLegacy_frame hv with ⟨l', rfl⟩ | ⟨l', own, -, g1, g2, rfl⟩
      · cases hq
      · cases List.mem_singleton.1 hq
        exact .connect p own _
  | extAdv p =>
    obtain ⟨u, v, hu, hv, rfl⟩ := receive_extAdv hy
    obtain ⟨w, hw, ho⟩ := scanExtended_out hu
    simp only [List.mem_append] at hq
    rcases hq with hq | hq
    · rw [ho, List.mem_append] at hq
      rcases hq with hq | hq
      · split at hq
        · exact absurd hq (extReports_send _ _ _)
        · cases hq
      · rcases hw with rfl | ⟨-, own, rfl⟩
        · cases hq
        · cases List.mem_singleton.1 hq
          exact .scanExt p own
    · rcases connectExtended_frame hv with ⟨l', rfl⟩ | ⟨l', own, -, g1, g2, rfl⟩
      · cases hq
      · cases List.mem_singleton.1 hq
        exact .connectExt p own _
  | periodic p =>
    simp only [receive, periodicPdu] at hy
    split at hy
    · cases hy; cases hq
    split at hy
    · cases hy; cases hq
    split at hy
    · split at hy
      · cases hy; cases hq
      · split at hy
        · cases hy
        · cases hy; simp at hq
    · cases hy
      simp at hq
  | connect init adv q' =>
    simp only [receive, incomingConnect] at hy
    obtain ⟨⟨b, s1, o1⟩, hl, hx⟩ := Res.bind_eq_ok hy
    rcases legacyConnect_cases hl with ⟨hb, ho, ⟨r, hs⟩, -⟩ | ⟨hb, -, -, -, -, z, hz, hx'⟩
    · simp only at hb ho hs
      subst hb ho hs
      simp only [Bool.false_eq_true, if_false] at hx
      rcases extConnectAll_cases _ hx with ⟨g1, -, -⟩ | ⟨k, a, s2, -, -, -, z, hz, rfl⟩
      · rw [g1] at hq; cases hq
      · simp only [List.mem_append] at hq
        rcases hq with hq | hq
        · exact absurd hq (handleConnection_send hz _)
        · simp at hq
          subst hq
          exact .complete ..
    · simp only at hb hx'
      subst hb
      simp only [if_true] at hx
      cases hx
      cases hx'
      simp only [List.mem_append] at hq
      rcases hq with hq | hq
      · exact absurd hq (handleConnection_send hz _)
      · cases List.mem_singleton.1 hq
        exact .complete ..
  | connectComplete init adv q' =>
    simp only [receive, incomingConnectComplete] at hy
    split at hy
    · cases hy; cases hq
    obtain ⟨z, hz, hx⟩ := Res.bind_eq_ok hy
    cases hx
    exact absurd hq (handleConnection_send hz _)
  | scan sc adv =>
    cases hy
    simp only [incomingScan, List.mem_append, List.mem_flatMap, legacyScanned, extScanned] at hq
    rcases hq with hq | ⟨e, -, hq⟩
    · split at hq
      · cases List.mem_singleton.1 hq; exact .response ..
      · cases hq
    · split at hq
      · cases List.mem_singleton.1 hq; exact .response ..
      · cases hq
  | scanResponse adv a d =>
    cases hy
    simp only [scanResponse] at hq
    split at hq
    · cases hq
    split at hq
    · cases hq
    · split at hq
      · simp only [responseReports, List.mem_append] at hq
        rcases hq with hq | hq
        · split at hq <;> simp at hq
        · split at hq <;> simp at hq
      · cases hq
  | link src dst b =>
    simp only [receive, incomingLink] at hy
    split at hy
    · cases hy; cases hq
    · cases b with
      | acl pb bc d => cases hy; simp at hq
      | disconnect r =>
        simp only at hy
        split at hy
        · cases hy
        · cases hy; simp at hq
      | other t d => cases hy; simp at hq
end

section
open Br

theorem dispatch_causes {s : Ctl} {now src dst rssi own : Nat} {p : Pkt} {r : Status} {s' : Ctl} {out : List (Nat × Pkt)} {ev : List Ev}
    (h : dispatch s now src rssi p = .ok r s' out ev) {e : Nat × Pkt} (he : e ∈ out) : Causes (.br src dst p) (.br own e.1 e.2) := by
  cases p <;> simp only [dispatch] at h
  case page cod allow =>
    unfold onPage at h
    repeat' split at h
    all_goals cases h
    all_goals first
      | cases he; done
      | (cases List.mem_singleton.1 he; exact .reject ..)
  case pageRsp =>
    unfold onPageRsp at h
    repeat' split at h
    all_goals cases h
    all_goals cases he
  case pageReject =>
    unfold onPageReject at h
    repeat' split at h
    all_goals cases h
    all_goals cases he
  case disconnect =>
    unfold onDisconnect at h
    repeat' split at h
    all_goals cases h
    all_goals cases he
  case roleReq =>
    unfold onRoleReq at h
    repeat' split at h
    all_goals cases h
    all_goals first
      | cases he; done
      | (cases List.mem_singleton.1 he; exact .role ..)
  case roleRsp =>
    unfold onRoleRsp at h
    repeat' split at h
    all_goals cases h
    all_goals cases he
  case scoReq =>
    unfold onScoReq at h
    split at h
    · cases h
      cases List.mem_singleton.1 he; exact .sco ..
    · split at h
      · cases h
      · cases h; cases he
  case scoRsp =>
    unfold onScoRsp at h
    split at h
    · cases h; cases he
    · split at h
      · split at h
        · cases h
        · cases h; cases he
      · split at h
        · cases h
        · cases h; cases he
  case scoDisc =>
    unfold onScoDisc at h
    repeat' split at h
    all_goals cases h
    all_goals cases he
  case lmp =>
    split at h
    · cases h; cases he
    · cases h
  case ping => cases h; cases List.mem_singleton.1 he; exact .pong ..
  case pong => cases h; cases he
  case inquiry t lap =>
    unfold onInquiry at h
    split at h
    · cases h; cases he
    split at h
    · cases h; cases he
    split at h
    · rename_i ht; subst ht; cases h; cases List.mem_singleton.1 he; exact .inquiry ..
    split at h
    · rename_i ht; subst ht; cases h; cases List.mem_singleton.1 he; exact .inquiry ..
    split at h
    · rename_i ht; subst ht; cases h; cases List.mem_singleton.1 he; exact .inquiry ..
    · cases h; cases he
  case inqRsp =>
    unfold onInqRsp at h
    repeat' split at h
    all_goals cases h
    all_goals cases he
  case acl =>
    unfold onAcl at h
    split at h <;> (cases h; cases he)
  case sco =>
    unfold onSco at h
    split at h <;> (cases h; cases he)
  case nameReq => cases h; cases List.mem_singleton.1 he; exact .name ..
  case nameRsp => cases h; cases he
  case hostFeaturesReq => cases h; cases List.mem_singleton.1 he; exact .hostFeatures ..
  case hostFeaturesRsp => cases h; cases he
  case featuresReq => cases h; cases List.mem_singleton.1 he; exact .features ..
  case featuresRsp =>
    unfold report at h
    split at h <;> (cases h; cases he)
  case extReq =>
    unfold onExtReq at h
    split at h
    · cases h
    · cases h; cases List.mem_singleton.1 he; exact .ext ..
  case extRsp =>
    unfold report at h
    split at h <;> (cases h; cases he)
  case versionReq => cases h; cases List.mem_singleton.1 he; exact .version ..
  case versionRsp =>
    unfold report at h
    split at h <;> (cases h; cases he)

theorem dispatch_few {s : Ctl} {now src rssi : Nat} {p : Pkt} {r : Status} {s' : Ctl} {out : List (Nat × Pkt)} {ev : List Ev}
    (h : dispatch s now src rssi p = .ok r s' out ev) : out.length ≤ 1 := by
  cases p <;> simp only [dispatch] at h
  case page cod allow =>
    unfold onPage at h
    repeat' split at h
    all_goals cases h
    all_goals simp
  case pageRsp =>
    unfold onPageRsp at h
    repeat' split at h
    all_goals cases h
    all_goals simp
  case pageReject =>
    unfold onPageReject at h
    repeat' split at h
    all_goals cases h
    all_goals simp
  case disconnect =>
    unfold onDisconnect at h
    repeat' split at h
    all_goals cases h
    all_goals simp
  case roleReq =>
    unfold onRoleReq at h
    repeat' split at h
    all_goals cases h
    all_goals simp
  case roleRsp =>
    unfold onRoleRsp at h
    repeat' split at h
    all_goals cases h
    all_goals simp
  case scoReq =>
    unfold onScoReq at h
    split at h
    · cases h
      simp
    · split at h
      · cases h
      · cases h; simp
  case scoRsp =>
    unfold onScoRsp at h
    split at h
    · cases h; simp
    · split at h
      · split at h
        · cases h
        · cases h; simp
      · split at h
        · cases h
        · cases h; simp
  case scoDisc =>
    unfold onScoDisc at h
    repeat' split at h
    all_goals cases h
    all_goals simp
  case lmp =>
    split at h
    · cases h; simp
    · cases h
  case ping => cases h; simp
  case pong => cases h; simp
  case inquiry t lap =>
    unfold onInquiry at h
    split at h
    · cases h; simp
    split at h
    · cases h; simp
    split at h
    · rename_i ht; subst ht; cases h; simp
    split at h
    · rename_i ht; subst ht; cases h; simp
    split at h
    · rename_i ht; subst ht; cases h; simp
    · cases h; simp
  case inqRsp =>
    unfold onInqRsp at h
    repeat' split at h
    all_goals cases h
    all_goals simp
  case acl =>
    unfold onAcl at h
    split at h <;> (cases h; simp)
  case sco =>
    unfold onSco at h
    split at h <;> (cases h; simp)
  case nameReq => cases h; simp
  case nameRsp => cases h; simp
  case hostFeaturesReq => cases h; simp
  case hostFeaturesRsp => cases h; simp
  case featuresReq => cases h; simp
  case featuresRsp =>
    unfold report at h
    split at h <;> (cases h; simp)
  case extReq =>
    unfold onExtReq at h
    split at h
    · cases h
    · cases h; simp
  case extRsp =>
    unfold report at h
    split at h <;> (cases h; simp)
  case versionReq => cases h; simp
  case versionRsp =>
    unfold report at h
    split at h <;> (cases h; simp)
end

theorem link_causes {d : Link.Dev} {h : Nat} {p : Link.Pkt} {r : Link.Out} (e : Link.receive d h p = some r) :
    r.out.length ≤ 1 ∧ ∀ x ∈ r.out, Causes (.link p) (.link x.2) := by
  unfold Link.receive at e
  split at e
  · cases e; exact ⟨by simp, fun x hx => by cases hx⟩
  · cases p <;> simp only at e
    case phyReq =>
      unfold Link.onPhyReq at e
      split at e
      · cases e; exact ⟨by simp, fun x hx => by cases List.mem_singleton.1 hx; exact .phyRsp ..⟩
      · cases e; exact ⟨by simp, fun x hx => by cases List.mem_singleton.1 hx; exact .phyInd ..⟩
    case phyRsp =>
      unfold Link.onPhyRsp at e
      split at e
      · cases e
      · cases e; exact ⟨by simp, fun x hx => by cases List.mem_singleton.1 hx; exact .phyDone ..⟩
    case phyInd =>
      unfold Link.onPhyInd at e
      split at e
      · cases e
      · cases e; exact ⟨by simp, fun x hx => by cases hx⟩
    case enc => cases e; exact ⟨by simp, fun x hx => by cases hx⟩
    case encRsp =>
      unfold Link.onEncRsp at e
      split at e
      · cases e; exact ⟨by simp, fun x hx => by cases hx⟩
      · split at e <;> (cases e; exact ⟨by simp, fun x hx => by cases hx⟩)
    case featReq => cases e; exact ⟨by simp, fun x hx => by cases List.mem_singleton.1 hx; exact .feat ..⟩
    case featRsp => cases e; exact ⟨by simp, fun x hx => by cases hx⟩
    case verReq => cases e; exact ⟨by simp, fun x hx => by cases List.mem_singleton.1 hx; exact .ver ..⟩
    case verRsp => cases e; exact ⟨by simp, fun x hx => by cases hx⟩
    case acl => cases e; exact ⟨by simp, fun x hx => by cases hx⟩

theorem sub_causes {d x : Sub.End} {p : Sub.Pdu} {st : Sub.Status} {out : List Sub.Pdu} {ev : List Sub.Ev}
    (e : Sub.incoming d p = .ok st x out ev) : out.length ≤ 1 ∧ ∀ q ∈ out, Causes (.sub p) (.sub q) := by
  cases p <;> simp only [Sub.incoming] at e
  case subrateReq =>
    unfold Sub.incomingSubrateReq at e
    split at e
    · cases e
    split at e
    · cases e
    split at e
    · cases e; exact ⟨by simp, fun x hx => by cases List.mem_singleton.1 hx; exact .subrate ..⟩
    · cases e; exact ⟨by simp, fun x hx => by cases List.mem_singleton.1 hx; exact .subrate ..⟩
  case subrateInd =>
    unfold Sub.incomingSubrateInd at e
    split at e
    · cases e
    · split at e <;> (cases e; exact ⟨by simp, fun x hx => by cases hx⟩)
  case paramReq =>
    unfold Sub.incomingParamReq at e
    split at e
    · cases e; exact ⟨by simp, fun x hx => by cases hx⟩
    · cases e; exact ⟨by simp, fun x hx => by cases List.mem_singleton.1 hx; exact .param ..⟩
  case paramUpdate =>
    unfold Sub.incomingParamUpdate at e
    split at e <;> (cases e; exact ⟨by simp, fun x hx => by cases hx⟩)

theorem reportStarted_out {d x : Cs.End} {id : Nat} {s : Cs.Slot} {o out : List Cs.Pdu} {st : Cs.Status} {ev : List Cs.Ev}
    (e : Cs.reportStarted d id s o = .ok st x out ev) : out = o := by
  unfold Cs.reportStarted at e
  split at e
  · cases e; rfl
  · split at e
    · cases e; rfl
    · split at e
      · cases e
      · cases e; rfl

theorem cs_causes {d x : Cs.End} {p : Cs.Pdu} {st : Cs.Status} {out : List Cs.Pdu} {ev : List Cs.Ev}
    (e : Cs.incoming d p = .ok st x out ev) : out.length ≤ 1 ∧ ∀ q ∈ out, Causes (.cs p) (.cs q) := by
  cases p <;> simp only [Cs.incoming] at e
  case capsReq =>
    unfold Cs.onCapsReq at e
    split at e <;> (cases e; exact ⟨by simp, fun x hx => by cases List.mem_singleton.1 hx; exact .csCaps ..⟩)
  case capsRsp =>
    unfold Cs.onCapsRsp at e
    split at e <;> (cases e; exact ⟨by simp, fun x hx => by cases hx⟩)
  case faeReq =>
    unfold Cs.onFaeReq at e
    split at e <;> (cases e; exact ⟨by simp, fun x hx => by cases List.mem_singleton.1 hx; exact .csFae ..⟩)
  case faeRsp =>
    unfold Cs.onFaeRsp at e
    split at e <;> (cases e; exact ⟨by simp, fun x hx => by cases hx⟩)
  case configReq =>
    unfold Cs.onConfigReq at e
    repeat' split at e
    all_goals (cases e; exact ⟨by simp, fun x hx => by cases List.mem_singleton.1 hx; exact .csConfig ..⟩)
  case configRsp =>
    unfold Cs.onConfigRsp at e
    repeat' split at e
    all_goals (cases e; exact ⟨by simp, fun x hx => by cases hx⟩)
  case secReq =>
    unfold Cs.onSecReq at e
    repeat' split at e
    all_goals (cases e; exact ⟨by simp, fun x hx => by cases List.mem_singleton.1 hx; exact .csSec ..⟩)
  case secRsp =>
    unfold Cs.onSecRsp at e
    split at e <;> (cases e; exact ⟨by simp, fun x hx => by cases hx⟩)
  case csReq =>
    unfold Cs.onCsReq at e
    split at e
    · cases e; exact ⟨by simp, fun x hx => by cases List.mem_singleton.1 hx; exact .csRsp ..⟩
    split at e
    · cases e; exact ⟨by simp, fun x hx => by cases List.mem_singleton.1 hx; exact .csRsp ..⟩
    split at e
    · cases e; exact ⟨by simp, fun x hx => by cases List.mem_singleton.1 hx; exact .csRsp ..⟩
    split at e
    · cases e; exact ⟨by simp, fun x hx => by cases List.mem_singleton.1 hx; exact .csRsp ..⟩
    split at e
    · cases e; exact ⟨by simp, fun x hx => by cases List.mem_singleton.1 hx; exact .csRsp ..⟩
    · rw [reportStarted_out e]
      exact ⟨by simp, fun x hx => by cases List.mem_singleton.1 hx; exact .csInd ..⟩
  case csRsp =>
    unfold Cs.onCsRsp at e
    split at e
    · cases e; exact ⟨by simp, fun x hx => by cases hx⟩
    split at e
    · rw [reportStarted_out e]
      exact ⟨by simp, fun x hx => by cases List.mem_singleton.1 hx; exact .csStart ..⟩
    · cases e; exact ⟨by simp, fun x hx => by cases hx⟩
  case csInd =>
    unfold Cs.onCsInd at e
    split at e
    · cases e; exact ⟨by simp, fun x hx => by cases hx⟩
    split at e
    · rw [reportStarted_out e]; exact ⟨by simp, fun x hx => by cases hx⟩
    · cases e; exact ⟨by simp, fun x hx => by cases hx⟩
  case mapInd => cases e; exact ⟨by simp, fun x hx => by cases hx⟩
  case termReq => cases e; exact ⟨by simp, fun x hx => by cases List.mem_singleton.1 hx; exact .csTerm ..⟩
  case termRsp => cases e; exact ⟨by simp, fun x hx => by cases hx⟩

/-- The packets among the outputs of the isochronous link layer. -/
def isoSends (l : List Iso.Out) : List Heard := l.filterMap (fun | .llcp _ q => some (.iso q) | _ => none)

theorem isoSend_out {s s' : Iso.State} {o out : List Iso.Out} (e : Iso.send s o = .ok (s', out)) : out = o := by
  unfold Iso.send at e
  split at e
  · cases e; rfl
  · cases e

theorem dequeue_out {s s' : Iso.State} {out : List Iso.Out} (e : Iso.dequeue s = .ok (s', out)) :
    out = [] ∨ ∃ h r, out = [.llcp h (.cisReq r)] := by
  unfold Iso.dequeue at e
  split at e
  · cases e; exact .inl rfl
  · split at e
    · split at e
      · cases e
      · split at e
        · cases e
        · exact .inr ⟨_, _, isoSend_out e⟩
    · cases e

theorem iso_causes {s s' : Iso.State} {h : Nat} {p : Iso.Pdu} {out : List Iso.Out} (e : Iso.runPdu s h p = .ok (s', out)) :
    (isoSends out).length ≤ 2 ∧ ∀ q ∈ isoSends out, Causes (.iso p) q := by
  have none {l : List Iso.Out} (hl : isoSends l = []) : (isoSends l).length ≤ 2 ∧ ∀ q ∈ isoSends l, Causes (.iso p) q := by
    rw [hl]; exact ⟨by simp, fun x hx => by cases hx⟩
  cases p <;> simp only [Iso.runPdu] at e
  case cisReq =>
    unfold Iso.cisReq at e
    split at e
    · cases e
    · cases e; exact none rfl
  case cisRsp =>
    unfold Iso.cisRsp at e
    split at e
    · cases e; exact none rfl
    · split at e
      · cases e
      · split at e
        · cases e
        · split at e
          · cases e
          · rename_i hd
            rw [isoSend_out e]
            rcases dequeue_out hd with rfl | ⟨k, r, rfl⟩
            · refine ⟨by simp [isoSends], fun q hq => ?_⟩
              simp [isoSends] at hq
              subst hq
              exact .cisInd ..
            · refine ⟨by simp [isoSends], fun q hq => ?_⟩
              simp [isoSends] at hq
              rcases hq with rfl | rfl
              · exact .cisInd ..
              · exact .cisNext ..
  case cisInd =>
    unfold Iso.cisInd at e
    split at e
    · cases e; exact none rfl
    · split at e
      · cases e
      · simp only at e
        split at e
        · cases e
        · rw [isoSend_out e]; exact none rfl
  case rejectExtInd =>
    unfold Iso.rejectExtInd at e
    split at e
    · cases e
    · split at e
      · cases e; exact none rfl
      · split at e
        · cases e
        · rename_i hd
          cases e
          rcases dequeue_out hd with rfl | ⟨k, r, rfl⟩
          · exact none rfl
          · refine ⟨by simp [isoSends], fun q hq => ?_⟩
            simp [isoSends] at hq
            subst hq
            exact .cisAfter ..
  case terminateInd =>
    unfold Iso.terminateInd at e
    split at e
    · cases e; exact none rfl
    · split at e
      · cases e; exact none rfl
      · cases e
  case other => cases e
  case malformed => cases e

theorem gets_causes {ah : Ll.Hash} {cfg : Le.Config} {d d' : Dev} {p : Heard} {out : List Heard} (h : Gets ah cfg d p d' out) {q : Heard}
    (hq : q ∈ out) : Causes p q := by
  cases h with
  | le rnd now p s o h =>
    simp only [Ll.step] at h
    obtain ⟨y, hy, h⟩ := Ll.Res.bind_eq_ok h
    cases h
    obtain ⟨o, ho, e⟩ := List.mem_filterMap.1 hq
    split at e
    · cases e
      exact receive_causes hy ho
    · cases e
  | link h p r e =>
    obtain ⟨x, hx, rfl⟩ := List.mem_map.1 hq
    exact (link_causes e).2 x hx
  | sub h p st x out ev e =>
    obtain ⟨y, hy, rfl⟩ := List.mem_map.1 hq
    exact (sub_causes e).2 y hy
  | cs h p st x out ev e =>
    obtain ⟨y, hy, rfl⟩ := List.mem_map.1 hq
    exact (cs_causes e).2 y hy
  | iso h p s out e => exact (iso_causes e).2 q hq
  | br now src dst rssi p r s out ev h =>
    simp only [Br.step, Br.incoming] at h
    obtain ⟨e, he, rfl⟩ := List.mem_map.1 hq
    split at h
    · cases h; cases he
    · exact dispatch_causes h he

theorem gets_few {ah : Ll.Hash} {cfg : Le.Config} {d d' : Dev} {p : Heard} {out : List Heard} (h : Gets ah cfg d p d' out) :
    match p with
    | .le (.legacyAdv _) => out.length ≤ 2
    | .le (.extAdv _) => out.length ≤ 2
    | .le (.connect ..) => out.length ≤ 1
    | .le _ => True
    | .iso _ => out.length ≤ 2
    | _ => out.length ≤ 1 := by
  cases h with
  | le rnd now p s o h =>
    simp only [Ll.step] at h
    obtain ⟨y, hy, h⟩ := Ll.Res.bind_eq_ok h
    cases h
    have := receive_few hy
    cases p <;> exact this
  | link h p r e => simpa using (link_causes e).1
  | sub h p st x out ev e => simpa using (sub_causes e).1
  | cs h p st x out ev e => simpa using (cs_causes e).1
  | iso h p s out e => exact (iso_causes e).1
  | br now src dst rssi p r s out ev h =>
    simp only [Br.step, Br.incoming] at h
    simp only [List.length_map]
    split at h
    · cases h; exact Nat.zero_le _
    · exact dispatch_few h

theorem delivers_less {ah : Ll.Hash} {cfg : Nat → Le.Config} {rs : List Nat} {n m : Net} (h : Delivers ah cfg rs n m) :
    Less (m.air.map fun e => rank e.2) (n.air.map fun e => rank e.2) := by
  obtain ⟨l, r, i, p, d, out, ha, hg⟩ := h
  refine ⟨l.map fun e => rank e.2, rank p, r.map fun e => rank e.2, (out.flatMap (fun q => rs.map fun j => (j, q))).map fun e => rank e.2, ?_, ?_, ?_⟩
  · rw [ha]; simp
  · simp only [List.map_append]
  · intro y hy
    obtain ⟨⟨j, q⟩, he, rfl⟩ := List.mem_map.1 hy
    obtain ⟨q', hq', he⟩ := List.mem_flatMap.1 he
    obtain ⟨j', -, e⟩ := List.mem_map.1 he
    cases e
    exact (gets_causes hg hq').rank

end Verif.Storm
