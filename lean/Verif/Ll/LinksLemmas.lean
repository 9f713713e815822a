import Verif.Ll.SpecLinks
import Verif.Ll.ConnLemmas
/-!
# The connections the host knows of: helper lemmas (C113)
-/

namespace Verif.Ll
open Verif.Le

/-- The event is about a connection that begins or ends. -/
def Out.isNews : Out → Bool
  | .connected .. => true
  | .disconnected .. => true
  | _ => false

def news (out : List Out) : List Out := out.filter Out.isNews

theorem news_append (a b : List Out) : news (a ++ b) = news a ++ news b := List.filter_append ..

theorem news_nil {l : List Out} (h : ∀ o ∈ l, o.isNews = true → False) : news l = [] := by
  rw [news, List.filter_eq_nil_iff]
  exact fun o ho hn => h o ho hn

theorem foldl_news (out : List Out) : ∀ l : Links, out.foldl Links.hear l = (news out).foldl Links.hear l := by
  induction out with
  | nil => intro l; rfl
  | cons o out ih =>
    intro l
    rw [List.foldl_cons, ih]
    cases o <;> rfl

theorem legacyReports_news (ah : Hash) (s : Le.State) (p : LegacyPdu) (r : AddressWithType) :
    news (legacyReports ah s p r) = [] := by
  unfold legacyReports
  generalize s.legacyInUse = lu
  generalize s.extendedInUse = eu
  generalize wantsDirectedReport ah s p.type.directed r p.target = wd
  cases lu <;> cases eu <;> cases wd <;> rfl

theorem extReports_news (p : ExtPdu) (r : AddressWithType) : news (extReports p r) = [] := by
  apply news_nil
  intro o ho hc
  simp only [extReports, List.mem_map] at ho
  obtain ⟨x, -, rfl⟩ := ho
  cases hc

/-- What a step does to the connections, and what the host hears of it. -/
inductive LinkStep (s s' : State) (out : List Out) : Op → Prop
  | same {o : Op} (h1 : s'.conns = s.conns) (h2 : news out = []) : LinkStep s s' out o
  | add {o : Op} (k : Nat) (c : LeConn) (last : Nat)
      (h0 : Conn.getUnusedHandle s.conns Conn.leStart Conn.leEnd s.lastHandle = some (k, last)) (h1 : s'.conns = (k, c) :: s.conns) (h2 : news out = [.connected k c]) : LinkStep s s' out o
  | remove {o : Op} (k r : Nat) (h0 : k ∈ s.links) (h1 : s'.conns = Conn.erase s.conns k) (h2 : news out = [.disconnected k r]) : LinkStep s s' out o
  | reset (h1 : s' = {}) : LinkStep s s' out .reset

theorem step_links {ah : Hash} {cfg : Config} {s : State} {o : Op} {x : State × Obs}
    (h : step ah cfg s o = .ok x) : LinkStep s x.1 x.2.out o := by
  cases o with
  | cmd c =>
    simp only [step] at h
    obtain ⟨y, hy, h⟩ := Res.bind_eq_ok h
    cases h
    simp only [command] at hy
    split at hy
    · cases hy
    · split at hy <;> (cases hy; exact .same rfl rfl)
  | receive rnd now p =>
    simp only [step] at h
    obtain ⟨y, hy, h⟩ := Res.bind_eq_ok h
    cases h
    cases p with
    | legacyAdv p =>
      obtain ⟨z, w, hw, hz, ho⟩ := receive_legacy_reports hy
      obtain ⟨u, v, hu, hv, rfl⟩ := receive_legacyAdv hy
      obtain ⟨l, hi, q, h1⟩ := scanLegacy_frame hu
      have hc : news (v.1, u.2 ++ v.2).2 = [] := by
        rw [ho, news_append, news_append]
        have e1 : news w = [] := by rcases hw with rfl | ⟨_, rfl⟩ <;> rfl
        have e2 : news z = [] := by rcases hz with rfl | ⟨_, _, rfl⟩ <;> rfl
        rw [e1, e2]
        split
        · rw [legacyReports_news]; rfl
        · rfl
      rcases connectLegacy_frame hv with ⟨l', rfl⟩ | ⟨l', own, -, -, -, rfl⟩
      · exact .same (by simp only [h1]) hc
      · exact .same (by simp only [h1]) hc
    | extAdv p =>
      obtain ⟨u, v, hu, hv, rfl⟩ := receive_extAdv hy
      obtain ⟨l, hi, q, h1⟩ := scanExtended_frame hu
      obtain ⟨w, hw, ho⟩ := scanExtended_out hu
      have hc : news u.2 = [] := by
        rw [ho, news_append]
        have e1 : news w = [] := by rcases hw with rfl | ⟨-, _, rfl⟩ <;> rfl
        rw [e1]
        split
        · rw [extReports_news]; rfl
        · rfl
      rcases connectExtended_frame hv with ⟨l', rfl⟩ | ⟨l', own, -, -, -, rfl⟩
      · exact .same (by simp only [h1])
          (by simp only [news_append, hc]; rfl)
      · exact .same (by simp only [h1])
          (by simp only [news_append, hc]; rfl)
    | periodic q =>
      simp only [receive, periodicPdu] at hy
      split at hy
      · cases hy; exact .same rfl rfl
      split at hy
      · cases hy; exact .same rfl rfl
      split at hy
      · split at hy
        · cases hy; exact .same rfl rfl
        · split at hy
          · cases hy
          · cases hy; exact .same rfl rfl
      · cases hy
        refine .same rfl (news_nil ?_)
        intro o ho hc
        cases o <;> first | (cases hc; done) | skip
        all_goals
          simp at ho
    | connect init adv q =>
      simp only [receive, incomingConnect] at hy
      obtain ⟨⟨b, s1, o1⟩, hl, hx⟩ := Res.bind_eq_ok hy
      rcases legacyConnect_cases hl with ⟨hb, ho, ⟨r, hs⟩, -⟩ | ⟨hb, -, -, -, -, z, hz, hx'⟩
      · simp only at hb ho hs
        subst hb ho hs
        simp only [Bool.false_eq_true, if_false] at hx
        rcases extConnectAll_cases _ hx with ⟨g1, ⟨r', g2⟩, -⟩ | ⟨k, a, s2, -, -, ⟨⟨r', hs2⟩, -⟩, z, hz, rfl⟩
        · exact .same (by rw [g2]) (by rw [g1]; rfl)
        · obtain ⟨last, h1, -, -, h2, h3, h4, -, -, h5⟩ := handleConnection_cases hz
          subst hs2
          exact .add z.1 _ last h1 h2 (by simp only [news_append, h5]; rfl)
      · simp only at hb hx'
        subst hb
        simp only [if_true] at hx
        cases hx
        cases hx'
        obtain ⟨last, h1, -, -, h2, h3, h4, -, -, h5⟩ := handleConnection_cases hz
        exact .add z.1 _ last h1 h2 (by simp only [news_append, h5]; rfl)
    | connectComplete init adv q =>
      simp only [receive, incomingConnectComplete] at hy
      split at hy
      · cases hy; exact .same rfl rfl
      obtain ⟨z, hz, hx⟩ := Res.bind_eq_ok hy
      cases hx
      obtain ⟨last, h1, -, -, h2, h3, h4, -, -, h5⟩ := handleConnection_cases hz
      refine .add z.1 _ last h1 h2 ?_
      simp only [h5]
      cases s.le.extendedInUse <;> rfl
    | scan sc adv =>
      cases hy
      refine .same rfl (news_nil ?_)
      intro o ho hc
      cases o <;> first | (cases hc; done) | skip
      all_goals
        simp only [incomingScan, List.mem_append, List.mem_flatMap, legacyScanned, extScanned] at ho
        rcases ho with ho | ⟨e, -, ho⟩
        · split at ho <;> simp at ho
        · split at ho <;> simp at ho
    | scanResponse adv a d =>
      cases hy
      simp only [scanResponse]
      split
      · exact .same rfl rfl
      split
      · exact .same rfl rfl
      · rename_i req _
        obtain ⟨hi, hh⟩ := remember_frame { s with le := resolveUpdate ah s.le adv, pending := mapErase s.pending adv } (.scanResponse adv a d)
        refine .same (by simp only [hh]) (news_nil ?_)
        intro o ho hc
        cases o <;> first | (cases hc; done) | skip
        all_goals
          split at ho
          · simp only [responseReports, List.mem_append] at ho
            rcases ho with ho | ho
            · split at ho <;> simp at ho
            · split at ho <;> simp at ho
          · cases ho
    | link src dst b =>
      simp only [receive, incomingLink] at hy
      split at hy
      · cases hy; exact .same rfl rfl
      split at hy
      · cases hy; exact .same rfl rfl
      · split at hy
        · cases hy
        · rename_i hr
          obtain ⟨h0, rfl⟩ := removeConnection_cases hr
          cases hy
          exact .remove _ _ h0 rfl rfl
      · cases hy; exact .same rfl rfl
  | tick now =>
    simp only [step] at h
    obtain ⟨y, hy, h⟩ := Res.bind_eq_ok h
    cases h
    simp only [tick] at hy
    split at hy
    · cases hy
    · rename_i le out ha
      cases hy
      have hf : ∀ s : State, (scanTimers now s).conns = s.conns ∧ (scanTimers now s).links = s.links ∧
          (scanTimers now s).lastHandle = s.lastHandle := by
        intro s; unfold scanTimers; split <;> exact ⟨rfl, rfl, rfl⟩
      refine .same (hf _).1 (news_nil ?_)
      intro o ho hc
      cases o <;> first | (cases hc; done) | skip
      all_goals
        rcases List.mem_append.mp ho with ho | ho
        · obtain ⟨z, -, hz⟩ := List.mem_map.mp ho
          exact absurd hz (by cases z <;> exact nofun)
        · split at ho <;> simp at ho
  | sendAcl a b c d =>
    simp only [step, handleAcl] at h
    obtain ⟨y, hy, h⟩ := Res.bind_eq_ok h
    cases h
    split at hy
    · cases hy
    split at hy <;> (cases hy; exact .same rfl rfl)
  | disconnect a b c =>
    simp only [step, disconnect] at h
    obtain ⟨y, hy, h⟩ := Res.bind_eq_ok h
    cases h
    split at hy
    · cases hy; exact .same rfl rfl
    split at hy
    · cases hy
    · rename_i hr
      obtain ⟨h0, rfl⟩ := removeConnection_cases hr
      cases hy
      exact .remove _ _ h0 rfl rfl
  | reset =>
    cases h
    exact .reset rfl

theorem find_erase (t : Conn.Table LeConn) (k i : Nat) :
    Conn.find (Conn.erase t k) i = if i = k then none else Conn.find t i := by
  induction t with
  | nil => simp [Conn.erase, Conn.find]
  | cons e t ih =>
    obtain ⟨a, c⟩ := e
    simp only [Conn.erase] at ih ⊢
    by_cases ha : a = k
    · rw [List.filter_cons_of_neg (by simp [ha]), ih]
      by_cases hi : i = k
      · rw [if_pos hi, if_pos hi]
      · rw [if_neg hi, if_neg hi]
        exact (if_neg (fun he : a = i => hi (he.symm.trans ha))).symm
    · rw [List.filter_cons_of_pos (by simp [ha])]
      show (if a = i then some c else Conn.find (List.filter (fun e => e.1 ≠ k) t) i) = _
      rw [ih]
      by_cases hi : i = k
      · rw [if_pos hi, if_pos hi, if_neg (fun he : a = i => ha (he.trans hi))]
      · rw [if_neg hi, if_neg hi]; rfl

/-- The list agrees with the state. -/
def Listing (s : State) (l : Links) : Prop := ∀ k, Conn.find s.conns k = l k

theorem listing_initial (a : Option Address) : Listing (initial a) Links.none := fun _ => rfl

theorem unused_handle {s : State} {k last : Nat} (hs : ConnsOk s)
    (h : Conn.getUnusedHandle s.conns Conn.leStart Conn.leEnd s.lastHandle = some (k, last)) :
    k ∉ Conn.keys s.conns ∧ 0x200 ≤ k ∧ k ≤ 0x2FF := by
  obtain ⟨g1, g2, g3, -⟩ := Conn.unused_some _ _ _ _ hs.last.1 hs.last.2 _ _ h
  exact ⟨g1, g2, g3⟩

theorem listing_step {ah : Hash} {cfg : Config} {s : State} {o : Op} {x : State × Obs} {l : Links}
    (hK : Listing s l) (h : step ah cfg s o = .ok x) : Listing x.1 (l.note o x.2) := by
  have hn : o = .reset ∨ l.note o x.2 = (news x.2.out).foldl Links.hear l := by
    cases o <;> first | exact .inl rfl | (right; exact foldl_news _ _)
  by_cases ho : o = .reset
  · subst ho
    cases h
    intro k; rfl
  have hn := hn.resolve_left ho
  intro i
  rw [hn]
  cases step_links h with
  | same h1 h2 => rw [h1, h2]; exact hK i
  | add k c last h0 h1 h2 =>
    rw [h1, h2]
    simp only [List.foldl_cons, List.foldl_nil, Links.hear]
    show (if k = i then some c else Conn.find s.conns i) = _
    by_cases hi : i = k
    · rw [if_pos hi, if_pos hi.symm]
    · rw [if_neg hi, if_neg (Ne.symm hi)]; exact hK i
  | remove k r h0 h1 h2 =>
    rw [h1, h2]
    simp only [List.foldl_cons, List.foldl_nil, Links.hear]
    rw [find_erase]
    by_cases hi : i = k
    · rw [if_pos hi, if_pos hi]
    · rw [if_neg hi, if_neg hi]; exact hK i
  | reset => exact absurd rfl ho

theorem listing_run {ah : Hash} {cfg : Config} : ∀ {ops : List Op} {s t : State} {l m : Links},
    Listing s l → runLinks ah cfg ops s l = .ok (t, m) → Listing t m
  | [], _, _, _, _, hK, h => by cases h; exact hK
  | _ :: _, _, _, _, _, hK, h => by
    simp only [runLinks] at h
    obtain ⟨y, hy, h⟩ := Res.bind_eq_ok h
    exact listing_run (listing_step hK hy) h

theorem runLinks_reachable {ah : Hash} {cfg : Config} : ∀ {ops : List Op} {s t : State} {l m : Links},
    runLinks ah cfg ops s l = .ok (t, m) → ∃ obs, run ah cfg ops s = .ok (t, obs)
  | [], s, _, _, _, h => by cases h; exact ⟨[], rfl⟩
  | o :: os, s, t, l, m, h => by
    simp only [runLinks] at h
    obtain ⟨y, hy, h⟩ := Res.bind_eq_ok h
    obtain ⟨obs, ho⟩ := runLinks_reachable h
    exact ⟨y.2 :: obs, by simp only [run, hy, Res.bind, ho]⟩

theorem runLinks_exists {ah : Hash} {cfg : Config} : ∀ {ops : List Op} {s t : State} {obs : List Obs} (l : Links),
    run ah cfg ops s = .ok (t, obs) → ∃ m, runLinks ah cfg ops s l = .ok (t, m)
  | [], _, _, _, l, h => by cases h; exact ⟨l, rfl⟩
  | o :: os, s, t, obs, l, h => by
    simp only [run] at h
    obtain ⟨y, hy, h⟩ := Res.bind_eq_ok h
    obtain ⟨z, hz, h⟩ := Res.bind_eq_ok h
    cases h
    obtain ⟨m, hm⟩ := runLinks_exists (l.note o y.2) hz
    exact ⟨m, by simp only [runLinks, hy]; exact hm⟩

end Verif.Ll
