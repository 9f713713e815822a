import Verif.Ll.ConnLemmas
/-!
# The initiator: helper lemmas (C36, C52)
-/

namespace Verif.Ll
open Verif.Le

theorem runCmd_initiating {cfg : Config} {s s' : Le.State} {c : Cmd} {e : Status}
    (h : runCmd cfg s c = .ret s' e) :
    (s'.initiator.pendingConnectRequest = s.initiator.pendingConnectRequest ∨
      s'.initiator.pendingConnectRequest = none) ∧
    s'.initiator.initiatingAddress = s.initiator.initiatingAddress := by
  cases c
  case setExtAdvertisingEnable =>
    obtain ⟨m, r, x, rfl⟩ := extEnable_frame (runCmd_extEnable h); exact ⟨.inl rfl, rfl⟩
  case createConnection rnd policy peer own p =>
    obtain ⟨rfl, -⟩ := runCmd_ret_of h
    simp only [createConnection, withLegacy, checkedThen]
    split
    · exact ⟨.inl rfl, rfl⟩
    split
    · split
      · obtain ⟨r, hr⟩ := initiatorAddressCheck_fst rnd { s with legacyInUse := true } policy peer own
        rw [hr]; exact ⟨.inl rfl, rfl⟩
      · obtain ⟨r, hr⟩ := initiatorAddressCheck_fst rnd { s with legacyInUse := true } policy peer own
        rw [hr]; exact ⟨.inr rfl, rfl⟩
    · exact ⟨.inl rfl, rfl⟩
  case extendedCreateConnection rnd policy own peer phys params =>
    obtain ⟨rfl, -⟩ := runCmd_ret_of h
    simp only [extendedCreateConnection, withExtended, checkedThen]
    split
    · exact ⟨.inl rfl, rfl⟩
    split
    · split
      · obtain ⟨r, hr⟩ := initiatorAddressCheck_fst rnd { s with extendedInUse := true } policy peer own
        rw [hr]; exact ⟨.inl rfl, rfl⟩
      · obtain ⟨r, hr⟩ := initiatorAddressCheck_fst rnd { s with extendedInUse := true } policy peer own
        rw [hr]; exact ⟨.inr rfl, rfl⟩
    · exact ⟨.inl rfl, rfl⟩
  all_goals
    obtain ⟨rfl, -⟩ := runCmd_ret_of h
    unfold_handlers
    repeat' split
    all_goals first | exact ⟨.inl rfl, rfl⟩ | (simp_all; done)

/-- A step keeps what the initiator waits for, forgets it, or sends a request. -/
def InitStep (s s' : State) (out : List Out) : Prop :=
  (∀ a, s'.le.initiator.pendingConnectRequest = some a →
    s.le.initiator.pendingConnectRequest = some a ∨ ∃ own q, .send (.connect own a q) ∈ out) ∧
  (s'.le.initiator.initiatingAddress ≠ 0 →
    s'.le.initiator.initiatingAddress = s.le.initiator.initiatingAddress ∨
    ∃ own a q, .send (.connect own a q) ∈ out ∧ own.address = s'.le.initiator.initiatingAddress)

theorem InitStep.of_initiator {s s' : State} {out : List Out}
    (h : s'.le.initiator = s.le.initiator) : InitStep s s' out := by
  refine ⟨fun a ha => .inl (by rw [← h]; exact ha), fun _ => .inl (by rw [h])⟩

theorem handleConnection_init {s : State} {c : LeConn} {ch : Bool} {x : Nat × State × List Out}
    (h : handleConnection s c ch = .ok x) :
    x.2.1.le.initiator.pendingConnectRequest = s.le.initiator.pendingConnectRequest ∧
    (x.2.1.le.initiator.initiatingAddress = s.le.initiator.initiatingAddress ∨
      x.2.1.le.initiator.initiatingAddress = 0) := by
  unfold handleConnection at h
  split at h
  · cases h
  · split at h
    · cases h
    · cases h
      refine ⟨rfl, ?_⟩
      simp only
      split
      · exact .inr rfl
      · exact .inl rfl

theorem step_init {ah : Hash} {cfg : Config} {s : State} {o : Op} {x : State × Obs}
    (h : step ah cfg s o = .ok x) : InitStep s x.1 x.2.out := by
  cases o with
  | cmd c =>
    simp only [step] at h
    obtain ⟨y, hy, h⟩ := Res.bind_eq_ok h
    cases h
    have hr : ∃ e, runCmd cfg s.le c = .ret y.1.le e := by
      simp only [command] at hy
      split at hy
      · cases hy
      · rename_i le e hr
        split at hy <;> (cases hy; exact ⟨e, hr⟩)
    obtain ⟨e, hr⟩ := hr
    obtain ⟨h1, h2⟩ := runCmd_initiating hr
    refine ⟨fun a ha => ?_, fun _ => .inl h2⟩
    rcases h1 with h1 | h1
    · exact .inl (by rw [← h1]; exact ha)
    · rw [h1] at ha; cases ha
  | receive rnd now p =>
    simp only [step] at h
    obtain ⟨y, hy, h⟩ := Res.bind_eq_ok h
    cases h
    cases p with
    | legacyAdv p =>
      obtain ⟨u, v, hu, hv, rfl⟩ := receive_legacyAdv hy
      obtain ⟨l, hi, q, h1⟩ := scanLegacy_frame hu
      rcases connectLegacy_frame hv with ⟨l', rfl⟩ | ⟨l', own, -, -, -, rfl⟩
      · exact .of_initiator (by simp only [h1])
      · refine ⟨fun a ha => .inr ?_, fun _ => .inr ⟨own, p.adv, requestParams u.1.le, ?_, rfl⟩⟩
        · cases ha; exact ⟨own, _, List.mem_append_right _ (List.mem_singleton.mpr rfl)⟩
        · exact List.mem_append_right _ (List.mem_singleton.mpr rfl)
    | extAdv p =>
      obtain ⟨u, v, hu, hv, rfl⟩ := receive_extAdv hy
      obtain ⟨l, hi, q, h1⟩ := scanExtended_frame hu
      rcases connectExtended_frame hv with ⟨l', rfl⟩ | ⟨l', own, -, -, -, rfl⟩
      · exact .of_initiator (by simp only [h1])
      · refine ⟨fun a ha => .inr ?_, fun _ => .inr ⟨own, p.adv, requestParams u.1.le, ?_, rfl⟩⟩
        · cases ha; exact ⟨own, _, List.mem_append_right _ (List.mem_singleton.mpr rfl)⟩
        · exact List.mem_append_right _ (List.mem_singleton.mpr rfl)
    | periodic q =>
      obtain ⟨r, hr⟩ := resolveUpdate_frame ah s.le q.adv
      simp only [receive, periodicPdu] at hy
      simp only [hr] at hy
      repeat' split at hy
      all_goals first | (cases hy; exact .of_initiator rfl) | cases hy
    | connect init adv q =>
      simp only [receive, incomingConnect] at hy
      obtain ⟨⟨b, s1, o1⟩, hl, hx⟩ := Res.bind_eq_ok hy
      rcases legacyConnect_cases hl with ⟨hb, ho, ⟨r, hs⟩, -⟩ | ⟨hb, -, -, -, -, z, hz, hx'⟩
      · simp only at hb ho hs
        subst hb ho hs
        simp only [Bool.false_eq_true, if_false] at hx
        rcases extConnectAll_cases _ hx with ⟨g1, ⟨r', g2⟩, -⟩ | ⟨k, a, s2, -, -, ⟨⟨r', hs2⟩, -⟩, z, hz, rfl⟩
        · exact .of_initiator (by rw [g2])
        · obtain ⟨h1, h2⟩ := handleConnection_init hz
          obtain ⟨r'', hr''⟩ := resolveUpdate_frame ah s2.le init
          rw [hr'', hs2] at h1 h2
          refine ⟨fun a ha => .inl (by rw [← h1]; exact ha), fun hne => ?_⟩
          rcases h2 with h2 | h2
          · exact .inl h2
          · exact absurd h2 hne
      · simp only at hb hx'
        subst hb
        simp only [if_true] at hx
        cases hx
        cases hx'
        obtain ⟨h1, h2⟩ := handleConnection_init hz
        obtain ⟨r'', hr''⟩ := resolveUpdate_frame ah s.le init
        rw [hr''] at h1 h2
        refine ⟨fun a ha => .inl (by rw [← h1]; exact ha), fun hne => ?_⟩
        rcases h2 with h2 | h2
        · exact .inl h2
        · exact absurd h2 hne
    | connectComplete init adv q =>
      simp only [receive, incomingConnectComplete] at hy
      split at hy
      · cases hy; exact .of_initiator rfl
      obtain ⟨z, hz, hx⟩ := Res.bind_eq_ok hy
      cases hx
      obtain ⟨-, h2⟩ := handleConnection_init hz
      obtain ⟨r'', hr''⟩ := resolveUpdate_frame ah s.le adv
      rw [hr''] at h2
      refine ⟨fun a ha => (by cases ha), fun hne => ?_⟩
      rcases h2 with h2 | h2
      · exact .inl h2
      · exact absurd h2 hne
    | scan sc adv =>
      cases hy
      obtain ⟨r'', hr''⟩ := resolveUpdate_frame ah s.le sc
      exact .of_initiator (by simp only [incomingScan, hr''])
    | scanResponse adv a d =>
      cases hy
      obtain ⟨r, hr⟩ := resolveUpdate_frame ah s.le adv
      simp only [scanResponse]
      split
      · exact .of_initiator rfl
      split
      · exact .of_initiator rfl
      · obtain ⟨hi, hh⟩ := remember_frame { s with le := resolveUpdate ah s.le adv, pending := mapErase s.pending adv } (.scanResponse adv a d)
        exact .of_initiator (by rw [hh]; simp only [hr])
    | link src dst b =>
      exact .of_initiator (by rw [incomingLink_le hy])
  | tick now =>
    simp only [step] at h
    obtain ⟨y, hy, h⟩ := Res.bind_eq_ok h
    cases h
    simp only [tick] at hy
    split at hy
    · cases hy
    · rename_i le out ha
      cases hy
      have hr : runEnv s.le (.tick now) = .ret (scanning now le).1 out := by simp only [runEnv, ha]
      obtain ⟨m, -, hm, -⟩ := runEnv_tick hr
      exact .of_initiator (by simp only [hm])
  | sendAcl a b c d =>
    simp only [step, handleAcl] at h
    obtain ⟨y, hy, h⟩ := Res.bind_eq_ok h
    cases h
    split at hy
    · cases hy
    split at hy <;> (cases hy; exact .of_initiator rfl)
  | disconnect a b c =>
    simp only [step, disconnect] at h
    obtain ⟨y, hy, h⟩ := Res.bind_eq_ok h
    cases h
    split at hy
    · cases hy; exact .of_initiator rfl
    split at hy
    · cases hy
    · rename_i hr
      obtain ⟨-, rfl⟩ := removeConnection_cases hr
      cases hy
      exact .of_initiator rfl
  | reset =>
    cases h
    exact ⟨fun a ha => (by cases ha), fun h => absurd rfl h⟩

end Verif.Ll
