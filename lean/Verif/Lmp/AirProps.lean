import Verif.Lmp.AirLemmas
import Verif.Lmp.PairProps

/-! # C97: no link key without the whole protocol -/

namespace Verif.Lmp

theorem times_zero (l : List Air) : times 0 l = [] := rfl

/-- The rounds after the first. -/
theorem rounds_air {f : Air → Air} {l : List Air} {t : List Heard} (h : air t = times 19 (l.map f)) :
    l.map f ++ air t = (times 20 l).map f := by
  rw [h, ← times_succ]
  simp [times]

theorem airOf : air [] = [] ∧ (∀ l t, air (.out (.lmp l) :: t) = .tx l :: air t) ∧ (∀ e t, air (.out (.hci e) :: t) = air t) ∧
    (∀ c t, air (.cmd c :: t) = air t) ∧ (∀ l t, air (.pkt l :: t) = .rx l :: air t) ∧
    (∀ op ok t, air (.verdict op ok :: t) = .answer op :: air t) ∧ ∀ ok t, air (.typed ok :: t) = air t :=
  ⟨rfl, fun _ _ => rfl, fun _ _ => rfl, fun _ _ => rfl, fun _ _ => rfl, fun _ _ _ => rfl, fun _ _ => rfl⟩
theorem hostOf : host [] = [] ∧ (∀ l t, host (.out (.lmp l) :: t) = host t) ∧ (∀ e t, host (.out (.hci e) :: t) = .event e :: host t) ∧
    (∀ c t, host (.cmd c :: t) = .command c.kind :: host t) ∧ (∀ l t, host (.pkt l :: t) = host t) ∧
    (∀ op ok t, host (.verdict op ok :: t) = host t) ∧ ∀ ok t, host (.typed ok :: t) = .typed ok :: host t :=
  ⟨rfl, fun _ _ => rfl, fun _ _ => rfl, fun _ _ => rfl, fun _ _ => rfl, fun _ _ _ => rfl, fun _ _ => rfl⟩

theorem stageI_air {p q : Params} {t : List Heard} (h : replay (stage1I (plan p q)) t = some true) :
    air t = stageOne p q ∧ host t = asked p q p := by
  have hm := authMethod_eq p q
  have pass : ∀ (k : Bool), replay (stage1I ⟨.passkeyEntry, k, decide (q.io = .keyboardOnly), decide (p.oob ≠ .notPresent), decide (q.oob ≠ .notPresent)⟩) t = some true →
      air t = times 20 ([.tx (.confirm true), .rx (.confirm true)] ++ nonces) ∧
      host t = if k then [.event .userPasskeyRequest, .typed true] else [.event .userPasskeyNotification] := by
    intro k h
    cases k
    · simp only [stage1I, Bool.false_eq_true, if_false] at h ⊢
      obtain ⟨_, t1, h1, t2, h2, rfl⟩ := replay_seq.1 h
      obtain ⟨_, t3, h3, t4, h4, rfl⟩ := replay_seq.1 h2
      obtain ⟨l, t5, h5, t6, h6, rfl⟩ := replay_seq.1 h4
      rw [replay_hci] at h1
      rw [replay_lmp] at h3
      obtain ⟨-, rfl⟩ := replay_recvLmp.1 h5
      split at h6
      · obtain ⟨e, -⟩ := replay_pure.1 h6; cases e
      · obtain ⟨_, t7, h7, t8, h8, rfl⟩ := replay_seq.1 h6
        obtain ⟨_, t9, h9, t10, h10, rfl⟩ := replay_seq.1 h8
        obtain ⟨rfl, a7, b7⟩ := replay_sendCommitment h7
        obtain ⟨a9, b9⟩ := replay_repeat (fun _ h => replay_roundI h) _ h9
        obtain ⟨-, rfl⟩ := replay_pure.1 h10
        subst h1 h3
        simp only [air_append, host_append, a7, b7, a9, b9, times_succ, passkeyRounds]
        exact ⟨rfl, rfl⟩
    · simp only [stage1I, if_true] at h ⊢
      obtain ⟨ok, t1, h1, t2, h2, rfl⟩ := replay_seq.1 h
      rw [replay_userPasskey] at h1
      cases ok
      · simp only [Bool.false_eq_true, if_false] at h2
        obtain ⟨_, t3, h3, t4, h4, rfl⟩ := replay_seq.1 h2
        obtain ⟨e, -⟩ := replay_pure.1 h4; cases e
      · simp only [if_true] at h2
        obtain ⟨_, t3, h3, t4, h4, rfl⟩ := replay_seq.1 h2
        obtain ⟨l, t5, h5, t6, h6, rfl⟩ := replay_seq.1 h4
        obtain ⟨_, t7, h7, t8, h8, rfl⟩ := replay_seq.1 h6
        obtain ⟨_, t9, h9, t10, h10, rfl⟩ := replay_seq.1 h8
        rw [replay_lmp] at h3
        obtain ⟨-, rfl⟩ := replay_recvLmp.1 h5
        obtain ⟨rfl, a7, b7⟩ := replay_sendCommitment h7
        obtain ⟨a9, b9⟩ := replay_repeat (fun _ h => replay_roundI h) _ h9
        obtain ⟨-, rfl⟩ := replay_pure.1 h10
        subst h1 h3
        simp only [air_append, host_append, a7, b7, a9, b9, times_succ, passkeyRounds]
        exact ⟨rfl, rfl⟩
  cases h1 : outOfBand p q
  · cases h2 : entry p q
    · have key : ∀ t, replay (do
          let c ← recvLmp isConfirm
          sendCommitment c
          if ← userConfirmation then return true
          else do
            lmp .numericFailed
            return false) t = some true → air t = stageOne p q ∧ host t = asked p q p := by
        intro t h
        obtain ⟨l, t1, h3, t2, h4, rfl⟩ := replay_seq.1 h
        obtain ⟨_, t3, h5, t4, h6, rfl⟩ := replay_seq.1 h4
        obtain ⟨ok, t5, h7, t6, h8, rfl⟩ := replay_seq.1 h6
        obtain ⟨-, rfl⟩ := replay_recvLmp.1 h3
        obtain ⟨rfl, a5, b5⟩ := replay_sendCommitment h5
        cases ok
        · simp only [Bool.false_eq_true, if_false] at h8
          obtain ⟨_, t7, h9, t8, h10, rfl⟩ := replay_seq.1 h8
          obtain ⟨e, -⟩ := replay_pure.1 h10; cases e
        · obtain ⟨a7, b7⟩ := replay_userConfirmation h7
          obtain ⟨-, rfl⟩ := replay_pure.1 h8
          simp only [air_append, host_append, a5, b5, a7, b7, stageOne, asked, h1, h2]
          exact ⟨rfl, rfl⟩
      rw [h1, h2] at hm
      simp only [Bool.false_eq_true, if_false] at hm
      split at hm
      · simp only [stage1I, plan, hm] at h; exact key t h
      · simp only [stage1I, plan, hm] at h; exact key t h
    · rw [h1, h2] at hm
      simp only [Bool.false_eq_true, if_false, if_true] at hm
      simp only [plan, hm] at h
      obtain ⟨a, b⟩ := pass _ h
      rw [a, b]
      simp [stageOne, asked, h1, h2]
  · rw [h1] at hm
    simp only [if_true] at hm
    simp only [plan, hm, stage1I] at h
    have body : ∀ {t1 t2}, (replay (do
          lmp (.confirm true)
          let c ← recvLmp isConfirm
          sendCommitment c
          return true) t2 = some true) → air t1 = [] → host t1 = asked p q p →
        air (t1 ++ t2) = stageOne p q ∧ host (t1 ++ t2) = asked p q p := by
      intro t1 t2 h4 e1 e2
      obtain ⟨_, t3, h5, t4, h6, rfl⟩ := replay_seq.1 h4
      obtain ⟨l, t5, h7, t6, h8, rfl⟩ := replay_seq.1 h6
      obtain ⟨_, t7, h9, t8, h10, rfl⟩ := replay_seq.1 h8
      rw [replay_lmp] at h5
      obtain ⟨-, rfl⟩ := replay_recvLmp.1 h7
      obtain ⟨rfl, a9, b9⟩ := replay_sendCommitment h9
      obtain ⟨-, rfl⟩ := replay_pure.1 h10
      subst h5
      simp only [air_append, host_append, a9, b9, e1, e2, stageOne, h1, if_true]
      refine ⟨rfl, ?_⟩
      show asked p q p ++ ([] ++ ([] ++ ([] ++ []))) = _
      simp
    split at h
    · rename_i ho
      obtain ⟨ok, t1, h3, t2, h4, rfl⟩ := replay_seq.1 h
      cases ok
      · obtain ⟨e, -⟩ := replay_pure.1 h4; cases e
      · obtain ⟨e1, e2⟩ := replay_remoteOob h3
        refine body h4 e1 ?_
        rw [e2, asked, h1]
        simp only [if_true]
        rw [if_neg (by simpa using ho)]
    · rename_i ho
      obtain ⟨ok, t1, h3, t2, h4, rfl⟩ := replay_seq.1 h
      obtain ⟨rfl, rfl⟩ := replay_pure.1 h3
      refine body h4 rfl ?_
      rw [asked, h1]
      simp only [if_true]
      rw [if_pos (by simpa using ho)]
      rfl

theorem keyType_eq (p q : Params) (c : Curve) : linkKeyType (authMethod p q) c = keyTypeOf (authenticated p q) c := by
  have ha : authenticated p q = (outOfBand p q || entry p q || (protection p q && comparing p.io q.io)) := by
    simp only [authenticated, entry]
    cases outOfBand p q <;> cases protection p q <;> cases typing p.io q.io <;> cases comparing p.io q.io <;> rfl
  rw [authMethod_eq, ha]
  cases outOfBand p q <;> cases entry p q <;> cases (protection p q && comparing p.io q.io) <;> cases c <;> rfl

/-- C97. The initiator. A simple pairing succeeds, against whatever peer, only after exactly this conversation: IO capabilities,
the question for Secure Connections if the own host has enabled them, both public keys, stage 1 with the commitments of the
method that the IO capabilities lay down — for a passkey 20 times —, every commitment of the peer checked, the DHKey checks, the
own one accepted, and an answered challenge in each direction. The host was asked what that method asks for, and agreed; it is
told of the success and of one key, of the type that the method and the curve lay down. -/
theorem C97_initiator {f : Feats} {t : List Heard} (h : replay (sspInitiate f) t = some true) :
    ∃ p q w d, let c := f.page1.b3 && Word.b3 w
      air t = [.tx (.ioReq (some p)), .rx (.ioRes (some q))] ++
        (if f.page1.b3 then [.tx (.featuresReq 1), .rx (.featuresRes w)] else []) ++
        keySent c ++ (keySent d).map Air.mirror ++ stageOne p q ++ stageTwo ∧
      host t = [.event .ioCapabilityRequest, .command .ioReply, .event (.answer .ioReply .success), .event (.ioCapabilityResponse q)] ++
        asked p q p ++ [.event (.simplePairingComplete .success), .event (.linkKeyNotification (keyTypeOf (authenticated p q) c))] ∧
      (∃ a, .cmd ⟨.ioReply, a, p⟩ ∈ t) ∧ .verdict .dhkeyCheck true ∈ t := by
  obtain ⟨_, t1, h1, t2, h2, rfl⟩ := replay_seq.1 h
  obtain ⟨cmd, t3, h3, t4, h4, rfl⟩ := replay_seq.1 h2
  rw [replay_hci] at h1
  obtain ⟨-, rfl⟩ := replay_recvHci.1 h3
  split at h4
  case isFalse =>
    obtain ⟨_, s5, -, s6, k6, rfl⟩ := replay_seq.1 h4
    obtain ⟨_, s7, -, s8, k8, rfl⟩ := replay_seq.1 k6
    obtain ⟨e, -⟩ := replay_pure.1 k8; cases e
  rename_i hk
  obtain ⟨_, t5, h5, t6, h6, rfl⟩ := replay_seq.1 h4
  obtain ⟨_, t7, h7, t8, h8, rfl⟩ := replay_seq.1 h6
  obtain ⟨l, t9, h9, t10, h10, rfl⟩ := replay_seq.1 h8
  rw [replay_hci] at h5
  rw [replay_lmp] at h7
  obtain ⟨-, rfl⟩ := replay_recvLmp.1 h9
  split at h10
  case h_2 => exact (replay_panic.1 h10).elim
  rename_i q
  obtain ⟨_, t11, h11, t12, h12, rfl⟩ := replay_seq.1 h10
  obtain ⟨c, t13, h13, t14, h14, rfl⟩ := replay_seq.1 h12
  rw [replay_hci] at h11
  -- the question for Secure Connections
  have hsc : ∃ w, c = (f.page1.b3 && Word.b3 w) ∧ air t13 = (if f.page1.b3 then [.tx (.featuresReq 1), .rx (.featuresRes w)] else []) ∧ host t13 = [] := by
    simp only [supportedOnBoth, show f.page 1 = f.page1 from rfl] at h13
    cases hb : f.page1.b3
    · rw [hb] at h13
      obtain ⟨rfl, rfl⟩ := replay_pure.1 h13
      exact ⟨⟨false, false, false⟩, rfl, rfl, rfl⟩
    · rw [hb] at h13
      simp only [if_true] at h13
      obtain ⟨_, s1, k1, s2, k2, rfl⟩ := replay_seq.1 h13
      obtain ⟨l, s3, k3, s4, k4, rfl⟩ := replay_seq.1 k2
      rw [replay_lmp] at k1
      obtain ⟨hl, rfl⟩ := replay_recvLmp.1 k3
      cases l <;> simp only [isFeaturesRes, Bool.false_eq_true] at hl
      rename_i w
      obtain ⟨rfl, rfl⟩ := replay_pure.1 k4
      subst k1
      exact ⟨w, by simp, rfl, rfl⟩
  obtain ⟨w, hc, a13, b13⟩ := hsc
  -- the rest
  obtain ⟨_, t15, h15, t16, h16, rfl⟩ := replay_seq.1 h14
  obtain ⟨d, t17, h17, t18, h18, rfl⟩ := replay_seq.1 h16
  obtain ⟨ok, t19, h19, t20, h20, rfl⟩ := replay_seq.1 h18
  obtain ⟨a15, b15⟩ := replay_sendPublicKey h15
  obtain ⟨a17, b17⟩ := replay_receivePublicKey h17
  cases ok
  case false =>
    simp only [Bool.false_eq_true, if_false] at h20
    obtain ⟨_, s5, -, s6, k6, rfl⟩ := replay_seq.1 h20
    obtain ⟨e, -⟩ := replay_pure.1 k6; cases e
  obtain ⟨a19, b19⟩ := stageI_air h19
  simp only [if_true] at h20
  obtain ⟨ok, t21, h21, t22, h22, rfl⟩ := replay_seq.1 h20
  rw [replay_sendAccepted] at h21
  cases ok
  case false =>
    simp only [Bool.false_eq_true, if_false] at h22
    obtain ⟨_, s5, -, s6, k6, rfl⟩ := replay_seq.1 h22
    obtain ⟨e, -⟩ := replay_pure.1 k6; cases e
  simp only [if_true] at h22
  obtain ⟨l, t23, h23, t24, h24, rfl⟩ := replay_seq.1 h22
  obtain ⟨_, t25, h25, t26, h26, rfl⟩ := replay_seq.1 h24
  obtain ⟨_, t27, h27, t28, h28, rfl⟩ := replay_seq.1 h26
  obtain ⟨ok, t29, h29, t30, h30, rfl⟩ := replay_seq.1 h28
  obtain ⟨_, t31, h31, t32, h32, rfl⟩ := replay_seq.1 h30
  obtain ⟨hl, rfl⟩ := replay_recvLmp.1 h23
  obtain rfl := isDhkey_cases hl
  rw [replay_lmp] at h25
  rw [replay_hci] at h27
  cases ok
  case false =>
    obtain ⟨e, -⟩ := replay_pure.1 h32; cases e
  simp only [if_true] at h32
  obtain ⟨_, t33, h33, t34, h34, rfl⟩ := replay_seq.1 h32
  rw [replay_hci] at h33
  obtain ⟨-, rfl⟩ := replay_pure.1 h34
  obtain ⟨a29, b29⟩ := replay_sendChallenge h29
  obtain ⟨a31, b31⟩ := replay_receiveChallenge h31
  subst h1 h5 h7 h11 h21 h25 h27 h33
  refine ⟨cmd.params, q, w, d, ?_, ?_, ?_, ?_⟩
  · rw [← hc]
    simp only [air_append, a13, a15, a17, a19, a29, a31]
    simp [airOf, stageTwo]
  · rw [← hc]
    simp only [host_append, b13, b15, b17, b19, b29, b31]
    simp [hostOf, hk, plan, keyType_eq]
  · refine ⟨cmd.addr, ?_⟩
    rw [show (⟨.ioReply, cmd.addr, cmd.params⟩ : Cmd) = cmd by cases cmd; simp_all]
    simp
  · simp

/-- The responder is asked the same, except that a refusal of out-of-band data counts as an answer. -/
def answeredOob (p q : Params) (t : List Talk) : Prop :=
  outOfBand p q = true → q.oob ≠ .notPresent → .command .oobNeg ∉ t

theorem stageR_air {p q : Params} {t : List Heard} (h : replay (stage1R (plan p q)) t = some (.ok false))
    (ho : answeredOob p q (host t)) : air t = (stageOne p q).map Air.mirror ∧ host t = asked p q q := by
  have hm := authMethod_eq p q
  have tail : ∀ {l t1}, replay (do
        checkCommitment l
        receiveCommitment
        repeatN passkeyRounds passkeyRoundR
        return StageR.ok false) t1 = some (.ok false) →
      Air.rx l :: air t1 = (times 20 ([.tx (.confirm true), .rx (.confirm true)] ++ nonces)).map Air.mirror ∧ host t1 = [] := by
    intro l t1 h
    obtain ⟨_, s1, k1, s2, k2, rfl⟩ := replay_seq.1 h
    obtain ⟨_, s3, k3, s4, k4, rfl⟩ := replay_seq.1 k2
    obtain ⟨_, s5, k5, s6, k6, rfl⟩ := replay_seq.1 k4
    obtain ⟨rfl, rfl⟩ := replay_checkCommitment k1
    obtain ⟨a3, b3⟩ := replay_receiveCommitment k3
    obtain ⟨a5, b5⟩ := replay_repeat (fun _ h => replay_roundR h) _ k5
    obtain ⟨-, rfl⟩ := replay_pure.1 k6
    have hr := rounds_air (f := Air.mirror) (l := [Air.tx (.confirm true), Air.rx (.confirm true)] ++ nonces) (t := s5) a5
    simp only [air_append, host_append, a3, b3, b5, airOf, hostOf]
    refine ⟨?_, rfl⟩
    rw [← hr]
    simp [Air.mirror, nonces]
  have pass : ∀ (k : Bool), replay (stage1R ⟨.passkeyEntry, decide (p.io = .keyboardOnly), k, decide (p.oob ≠ .notPresent), decide (q.oob ≠ .notPresent)⟩) t = some (.ok false) →
      air t = (times 20 ([.tx (.confirm true), .rx (.confirm true)] ++ nonces)).map Air.mirror ∧
      host t = if k then [.event .userPasskeyRequest, .typed true] else [.event .userPasskeyNotification] := by
    intro k h
    cases k
    · simp only [stage1R, Bool.false_eq_true, if_false] at h ⊢
      obtain ⟨_, t1, h1, t2, h2, rfl⟩ := replay_seq.1 h
      obtain ⟨l, t3, h3, t4, h4, rfl⟩ := replay_seq.1 h2
      rw [replay_hci] at h1
      obtain ⟨-, rfl⟩ := replay_recvLmp.1 h3
      split at h4
      · obtain ⟨e, -⟩ := replay_pure.1 h4; cases e
      · obtain ⟨a, b⟩ := tail h4
        subst h1
        simp only [air_append, host_append, airOf, hostOf, b]
        exact ⟨by simpa using a, rfl⟩
    · simp only [stage1R, if_true] at h ⊢
      obtain ⟨ok, t1, h1, t2, h2, rfl⟩ := replay_seq.1 h
      obtain ⟨l, t3, h3, t4, h4, rfl⟩ := replay_seq.1 h2
      rw [replay_userPasskey] at h1
      obtain ⟨-, rfl⟩ := replay_recvLmp.1 h3
      cases ok
      · simp only [Bool.false_eq_true, if_false] at h4
        obtain ⟨_, s3, k3, s4, k4, rfl⟩ := replay_seq.1 h4
        obtain ⟨e, -⟩ := replay_pure.1 k4; cases e
      · obtain ⟨a, b⟩ := tail h4
        subst h1
        simp only [air_append, host_append, airOf, hostOf, b]
        exact ⟨by simpa using a, rfl⟩
  cases h1 : outOfBand p q
  · cases h2 : entry p q
    · have key : replay (do
          receiveCommitment
          let ok ← userConfirmation
          return StageR.ok (!ok)) t = some (.ok false) → air t = (stageOne p q).map Air.mirror ∧ host t = asked p q q := by
        intro h
        obtain ⟨_, t1, h3, t2, h4, rfl⟩ := replay_seq.1 h
        obtain ⟨ok, t5, h7, t6, h8, rfl⟩ := replay_seq.1 h4
        obtain ⟨a3, b3⟩ := replay_receiveCommitment h3
        obtain ⟨e, rfl⟩ := replay_pure.1 h8
        cases ok
        · cases e
        · obtain ⟨a7, b7⟩ := replay_userConfirmation h7
          simp only [air_append, host_append, a3, b3, a7, b7, stageOne, asked, h1, h2]
          exact ⟨rfl, rfl⟩
      rw [h1, h2] at hm
      simp only [Bool.false_eq_true, if_false] at hm
      split at hm
      · simp only [stage1R, plan, hm] at h; exact key h
      · simp only [stage1R, plan, hm] at h; exact key h
    · rw [h1, h2] at hm
      simp only [Bool.false_eq_true, if_false, if_true] at hm
      simp only [plan, hm] at h
      obtain ⟨a, b⟩ := pass _ h
      rw [a, b]
      simp [stageOne, asked, h1, h2]
  · rw [h1] at hm
    simp only [if_true] at hm
    simp only [plan, hm, stage1R] at h
    have body : ∀ {t1 t2}, (replay (do
          let c ← recvLmp isConfirm
          checkCommitment c
          receiveCommitment
          return StageR.ok false) t2 = some (.ok false)) → air t1 = [] → host t1 = asked p q q →
        air (t1 ++ t2) = (stageOne p q).map Air.mirror ∧ host (t1 ++ t2) = asked p q q := by
      intro t1 t2 h4 e1 e2
      obtain ⟨l, t3, h5, t4, h6, rfl⟩ := replay_seq.1 h4
      obtain ⟨_, t5, h7, t6, h8, rfl⟩ := replay_seq.1 h6
      obtain ⟨_, t7, h9, t8, h10, rfl⟩ := replay_seq.1 h8
      obtain ⟨-, rfl⟩ := replay_recvLmp.1 h5
      obtain ⟨rfl, rfl⟩ := replay_checkCommitment h7
      obtain ⟨a9, b9⟩ := replay_receiveCommitment h9
      obtain ⟨-, rfl⟩ := replay_pure.1 h10
      simp only [air_append, host_append, a9, b9, e1, e2, stageOne, h1, if_true]
      refine ⟨rfl, ?_⟩
      simp [hostOf]
    split at h
    · rename_i hq
      have hq : q.oob ≠ .notPresent := by simpa using hq
      obtain ⟨ok, t1, h3, t2, h4, rfl⟩ := replay_seq.1 h
      have hn := ho h1 hq
      rw [host_append, List.mem_append, not_or] at hn
      cases ok
      · exfalso
        obtain ⟨_, s1, k1, s2, k2, rfl⟩ := replay_seq.1 h3
        obtain ⟨c, hc1, hc2, rfl⟩ := replay_recvReply.1 k2
        have hc3 : c.kind = .oobNeg := hc1.resolve_left (of_decide_eq_false hc2.symm)
        refine hn.1 ?_
        simp [host_append, hostOf, hc3]
      · obtain ⟨e1, e2⟩ := replay_remoteOob h3
        refine body h4 e1 ?_
        rw [e2, asked, h1]
        simp only [if_true]
        rw [if_neg hq]
    · rename_i hq
      obtain ⟨ok, t1, h3, t2, h4, rfl⟩ := replay_seq.1 h
      obtain ⟨rfl, rfl⟩ := replay_pure.1 h3
      refine body h4 rfl ?_
      rw [asked, h1]
      simp only [if_true]
      rw [if_pos (by simpa using hq)]
      rfl

/-- C97. The responder, to a peer with the IO capabilities `p`: the same conversation, seen from the other side, with one exception.
The full statement has no hypothesis `answeredOob`: see `C97_oob_violated`. -/
theorem C97_responder_partial {p : Params} {t : List Heard} (h : replay (sspRespond (some p)) t = some true)
    (ho : ∀ q, answeredOob p q (host t)) :
    ∃ q c, air t = .tx (.ioRes (some q)) :: ((keySent c).map Air.mirror ++ keySent c ++ (stageOne p q).map Air.mirror ++ stageTwo.map Air.mirror) ∧
      host t = [.event (.ioCapabilityResponse p), .event .ioCapabilityRequest, .command .ioReply, .event (.answer .ioReply .success)] ++
        asked p q q ++ [.event (.simplePairingComplete .success), .event (.linkKeyNotification (keyTypeOf (authenticated p q) c))] ∧
      ∃ a, .cmd ⟨.ioReply, a, q⟩ ∈ t := by
  obtain ⟨_, t1, h1, t2, h2, rfl⟩ := replay_seq.1 h
  obtain ⟨_, t3, h3, t4, h4, rfl⟩ := replay_seq.1 h2
  obtain ⟨cmd, t5, h5, t6, h6, rfl⟩ := replay_seq.1 h4
  rw [replay_hci] at h1 h3
  obtain ⟨-, rfl⟩ := replay_recvHci.1 h5
  split at h6
  case isFalse =>
    obtain ⟨_, s5, -, s6, k6, rfl⟩ := replay_seq.1 h6
    obtain ⟨_, s7, -, s8, k8, rfl⟩ := replay_seq.1 k6
    obtain ⟨_, s9, -, s10, k10, rfl⟩ := replay_seq.1 k8
    obtain ⟨e, -⟩ := replay_pure.1 k10; cases e
  rename_i hk
  obtain ⟨_, t7, h7, t8, h8, rfl⟩ := replay_seq.1 h6
  obtain ⟨_, t9, h9, t10, h10, rfl⟩ := replay_seq.1 h8
  rw [replay_hci] at h7
  rw [replay_lmp] at h9
  obtain ⟨c, t11, h11, t12, h12, rfl⟩ := replay_seq.1 h10
  obtain ⟨_, t13, h13, t14, h14, rfl⟩ := replay_seq.1 h12
  obtain ⟨st, t15, h15, t16, h16, rfl⟩ := replay_seq.1 h14
  obtain ⟨a11, b11⟩ := replay_receivePublicKey h11
  obtain ⟨a13, b13⟩ := replay_sendPublicKey h13
  split at h16
  case h_1 =>
    obtain ⟨_, s5, -, s6, k6, rfl⟩ := replay_seq.1 h16
    obtain ⟨e, -⟩ := replay_pure.1 k6; cases e
  rename_i neg
  obtain ⟨l, t17, h17, t18, h18, rfl⟩ := replay_seq.1 h16
  obtain ⟨hl, rfl⟩ := replay_recvLmp.1 h17
  split at h18
  case h_1 =>
    obtain ⟨_, s5, -, s6, k6, rfl⟩ := replay_seq.1 h18
    obtain ⟨e, -⟩ := replay_pure.1 k6; cases e
  rename_i hnf
  have hl : l = .dhkeyCheck := by
    cases l <;> simp [isFailedOrDhkey] at hl ⊢
    exact hnf rfl
  subst hl
  cases neg
  case true =>
    simp only [if_true] at h18
    obtain ⟨_, s5, -, s6, k6, rfl⟩ := replay_seq.1 h18
    obtain ⟨_, s7, -, s8, k8, rfl⟩ := replay_seq.1 k6
    obtain ⟨e, -⟩ := replay_pure.1 k8; cases e
  simp only [Bool.false_eq_true, if_false] at h18
  obtain ⟨_, t19, h19, t20, h20, rfl⟩ := replay_seq.1 h18
  obtain ⟨ok, t21, h21, t22, h22, rfl⟩ := replay_seq.1 h20
  obtain ⟨_, t23, h23, t24, h24, rfl⟩ := replay_seq.1 h22
  obtain ⟨_, t25, h25, t26, h26, rfl⟩ := replay_seq.1 h24
  obtain ⟨ok', t27, h27, t28, h28, rfl⟩ := replay_seq.1 h26
  rw [replay_lmp] at h19
  rw [replay_sendAccepted] at h21
  rw [replay_hci] at h23
  cases ok'
  case false =>
    obtain ⟨e, -⟩ := replay_pure.1 h28; cases e
  simp only [if_true] at h28
  obtain ⟨_, t29, h29, t30, h30, rfl⟩ := replay_seq.1 h28
  rw [replay_hci] at h29
  obtain ⟨-, rfl⟩ := replay_pure.1 h30
  obtain ⟨a25, b25⟩ := replay_receiveChallenge h25
  obtain ⟨a27, b27⟩ := replay_sendChallenge h27
  have ho' : answeredOob p cmd.params (host t15) := by
    intro e1 e2
    have := ho cmd.params e1 e2
    simp only [host_append, List.mem_append, not_or] at this
    exact this.2.2.2.2.2.2.2.1
  obtain ⟨a15, b15⟩ := stageR_air h15 ho'
  subst h1 h3 h7 h9 h19 h21 h23 h29
  refine ⟨cmd.params, c, ?_, ?_, cmd.addr, ?_⟩
  · simp only [air_append, a11, a13, a15, a25, a27]
    simp [airOf, stageTwo, Air.mirror]
  · simp only [host_append, b11, b13, b15, b25, b27]
    simp [hostOf, hk, plan, keyType_eq]
  · rw [show (⟨.ioReply, cmd.addr, cmd.params⟩ : Cmd) = cmd by cases cmd; simp_all]
    simp

/-- C97. Pairing with a PIN: the same for the initiator and the responder. -/
theorem C97_legacy {t : List Heard} :
    (replay legacyInitiate t = some true →
      air t = [.tx .inRand, .answer .inRand, .tx .combKey, .rx .combKey, .tx .auRand, .rx .sres, .rx .auRand, .tx .sres] ∧
      host t = [.event .pinCodeRequest, .command .pinReply, .event (.answer .pinReply .success), .event (.linkKeyNotification .combination)]) ∧
    (replay legacyRespond t = some true →
      air t = [.tx (.accepted .inRand), .rx .combKey, .tx .combKey, .rx .auRand, .tx .sres, .tx .auRand, .rx .sres] ∧
      host t = [.event .pinCodeRequest, .command .pinReply, .event (.answer .pinReply .success), .event (.linkKeyNotification .combination)]) := by
  constructor
  · intro h
    obtain ⟨_, t1, h1, t2, h2, rfl⟩ := replay_seq.1 h
    obtain ⟨c, t3, h3, t4, h4, rfl⟩ := replay_seq.1 h2
    obtain ⟨_, t5, h5, t6, h6, rfl⟩ := replay_seq.1 h4
    obtain ⟨ok, t7, h7, t8, h8, rfl⟩ := replay_seq.1 h6
    obtain ⟨_, t9, h9, t10, h10, rfl⟩ := replay_seq.1 h8
    obtain ⟨l, t11, h11, t12, h12, rfl⟩ := replay_seq.1 h10
    obtain ⟨ok', t13, h13, t14, h14, rfl⟩ := replay_seq.1 h12
    obtain ⟨_, t15, h15, t16, h16, rfl⟩ := replay_seq.1 h14
    rw [replay_hci] at h1 h5
    rw [replay_sendAccepted] at h7
    rw [replay_lmp] at h9
    obtain ⟨hc, rfl⟩ := replay_recvHci.1 h3
    obtain ⟨hl, rfl⟩ := replay_recvLmp.1 h11
    obtain ⟨a15, b15⟩ := replay_receiveChallenge h15
    cases ok'
    · obtain ⟨e, -⟩ := replay_pure.1 h16; cases e
    · simp only [if_true] at h16
      obtain ⟨_, t17, h17, t18, h18, rfl⟩ := replay_seq.1 h16
      rw [replay_hci] at h17
      obtain ⟨-, rfl⟩ := replay_pure.1 h18
      obtain ⟨a13, b13⟩ := replay_sendChallenge h13
      have hl : l = .combKey := by cases l <;> simp [isCombKey] at hl ⊢
      subst h1 h5 h7 h9 h17 hl
      simp only [decide_eq_true_eq] at hc
      simp [air_append, host_append, airOf, hostOf, a13, b13, a15, b15, hc]
  · intro h
    obtain ⟨_, t1, h1, t2, h2, rfl⟩ := replay_seq.1 h
    obtain ⟨c, t3, h3, t4, h4, rfl⟩ := replay_seq.1 h2
    obtain ⟨_, t5, h5, t6, h6, rfl⟩ := replay_seq.1 h4
    obtain ⟨ok, t7, h7, t8, h8, rfl⟩ := replay_seq.1 h6
    obtain ⟨l, t9, h9, t10, h10, rfl⟩ := replay_seq.1 h8
    obtain ⟨_, t11, h11, t12, h12, rfl⟩ := replay_seq.1 h10
    obtain ⟨_, t13, h13, t14, h14, rfl⟩ := replay_seq.1 h12
    obtain ⟨ok', t15, h15, t16, h16, rfl⟩ := replay_seq.1 h14
    rw [replay_hci] at h1 h5
    rw [replay_lmp] at h7 h11
    obtain ⟨hc, rfl⟩ := replay_recvHci.1 h3
    obtain ⟨hl, rfl⟩ := replay_recvLmp.1 h9
    obtain ⟨a13, b13⟩ := replay_receiveChallenge h13
    cases ok'
    · obtain ⟨e, -⟩ := replay_pure.1 h16; cases e
    · simp only [if_true] at h16
      obtain ⟨_, t17, h17, t18, h18, rfl⟩ := replay_seq.1 h16
      rw [replay_hci] at h17
      obtain ⟨-, rfl⟩ := replay_pure.1 h18
      obtain ⟨a15, b15⟩ := replay_sendChallenge h15
      have hl : l = .combKey := by cases l <;> simp [isCombKey] at hl ⊢
      subst h1 h5 h7 h11 h17 hl
      simp only [decide_eq_true_eq] at hc
      simp [air_append, host_append, airOf, hostOf, a13, b13, a15, b15, hc]

/-! ## No key before the end -/

/-- The host is told of a key. -/
def Heard.isKey : Heard → Bool
  | .out (.hci (.linkKeyNotification _)) => true
  | _ => false

/-- Never tells of a key. -/
def Mute {α : Type} (p : Prog α) : Prop := ∀ t k, reach p t = some k → ∀ x ∈ t, Heard.isKey x = false
/-- Tells of a key only when it ends with success. -/
def Late (p : Prog Bool) : Prop := ∀ t k, reach p t = some k → (∃ x ∈ t, Heard.isKey x = true) → k = .ret true

theorem reach_bind {α β : Type} {f : α → Prog β} {k : Prog β} : ∀ (p : Prog α) (t : List Heard), reach (p.bind f) t = some k →
    (∃ k', reach p t = some k') ∨ ∃ t1 t2 a, t = t1 ++ t2 ∧ replay p t1 = some a ∧ reach (f a) t2 = some k := by
  intro p
  induction p with
  | ret a => intro t h; exact .inr ⟨[], t, a, rfl, rfl, h⟩
  | send o q ih =>
    intro t h
    cases t with
    | nil => exact .inl ⟨_, by rw [reach]⟩
    | cons x t =>
      cases x <;> simp only [Prog.bind, reach, reduceCtorEq] at h
      split at h
      · rename_i e
        rcases ih t h with ⟨k', h'⟩ | ⟨t1, t2, a, rfl, h1, h2⟩
        · exact .inl ⟨k', by simp [reach, e, h']⟩
        · exact .inr ⟨_ :: t1, t2, a, rfl, by simp [replay, e, h1], h2⟩
      · cases h
  | recvHci acc q ih =>
    intro t h
    cases t with
    | nil => exact .inl ⟨_, by rw [reach]⟩
    | cons x t =>
      cases x <;> simp only [Prog.bind, reach, reduceCtorEq] at h
      split at h
      · rename_i e
        rcases ih _ t h with ⟨k', h'⟩ | ⟨t1, t2, a, rfl, h1, h2⟩
        · exact .inl ⟨k', by simp [reach, e, h']⟩
        · exact .inr ⟨_ :: t1, t2, a, rfl, by simp [replay, e, h1], h2⟩
      · cases h
  | recvLmp acc q ih =>
    intro t h
    cases t with
    | nil => exact .inl ⟨_, by rw [reach]⟩
    | cons x t =>
      cases x <;> simp only [Prog.bind, reach, reduceCtorEq] at h
      split at h
      · rename_i e
        rcases ih _ t h with ⟨k', h'⟩ | ⟨t1, t2, a, rfl, h1, h2⟩
        · exact .inl ⟨k', by simp [reach, e, h']⟩
        · exact .inr ⟨_ :: t1, t2, a, rfl, by simp [replay, e, h1], h2⟩
      · cases h
  | wait op q ih =>
    intro t h
    cases t with
    | nil => exact .inl ⟨_, by rw [reach]⟩
    | cons x t =>
      cases x <;> simp only [Prog.bind, reach, reduceCtorEq] at h
      split at h
      · rename_i e
        rcases ih _ t h with ⟨k', h'⟩ | ⟨t1, t2, a, rfl, h1, h2⟩
        · exact .inl ⟨k', by simp [reach, e, h']⟩
        · exact .inr ⟨_ :: t1, t2, a, rfl, by simp [replay, e, h1], h2⟩
      · cases h
  | passkey q ih =>
    intro t h
    cases t with
    | nil => exact .inl ⟨_, by rw [reach]⟩
    | cons x t =>
      cases x <;> simp only [Prog.bind, reach, reduceCtorEq] at h
      rcases ih _ t h with ⟨k', h'⟩ | ⟨t1, t2, a, rfl, h1, h2⟩
      · exact .inl ⟨k', by simp [reach, h']⟩
      · exact .inr ⟨_ :: t1, t2, a, rfl, by simp [replay, h1], h2⟩
  | panic =>
    intro t h
    cases t with
    | nil => exact .inl ⟨_, by rw [reach]⟩
    | cons x t => cases x <;> simp [Prog.bind, reach] at h

theorem reach_replay {α : Type} {a : α} : ∀ (p : Prog α) (t : List Heard), replay p t = some a ↔ reach p t = some (.ret a) := by
  intro p
  induction p with
  | ret b => intro t; cases t <;> simp [replay, reach]
  | send o q ih => intro t; cases t with | nil => simp [replay, reach] | cons x t => cases x <;> simp [replay, reach, ih]
  | recvHci acc q ih => intro t; cases t with | nil => simp [replay, reach] | cons x t => cases x <;> simp [replay, reach, ih]
  | recvLmp acc q ih => intro t; cases t with | nil => simp [replay, reach] | cons x t => cases x <;> simp [replay, reach, ih]
  | wait op q ih => intro t; cases t with | nil => simp [replay, reach] | cons x t => cases x <;> simp [replay, reach, ih]
  | passkey q ih => intro t; cases t with | nil => simp [replay, reach] | cons x t => cases x <;> simp [replay, reach, ih]
  | panic => intro t; cases t <;> simp [replay, reach]

theorem mute_bind {α β : Type} {p : Prog α} {f : α → Prog β} (h1 : Mute p) (h2 : ∀ a, Mute (f a)) : Mute (p >>= f) := by
  intro t k h x hx
  rcases reach_bind p t h with ⟨k', h'⟩ | ⟨t1, t2, a, rfl, k1, k2⟩
  · exact h1 _ _ h' x hx
  · rcases List.mem_append.1 hx with hx | hx
    · exact h1 _ _ ((reach_replay p t1).1 k1) x hx
    · exact h2 a _ _ k2 x hx

theorem late_bind {α : Type} {p : Prog α} {f : α → Prog Bool} (h1 : Mute p) (h2 : ∀ a, Late (f a)) : Late (p >>= f) := by
  intro t k h ⟨x, hx, hk⟩
  rcases reach_bind p t h with ⟨k', h'⟩ | ⟨t1, t2, a, rfl, k1, k2⟩
  · rw [h1 _ _ h' x hx] at hk; cases hk
  · rcases List.mem_append.1 hx with hx | hx
    · rw [h1 _ _ ((reach_replay p t1).1 k1) x hx] at hk; cases hk
    · exact h2 a _ _ k2 ⟨x, hx, hk⟩

theorem late_mute {p : Prog Bool} (h : Mute p) : Late p := by
  intro t k hr ⟨x, hx, hk⟩
  rw [h t k hr x hx] at hk; cases hk

theorem mute_ret {α : Type} (a : α) : Mute (.ret a : Prog α) := by
  intro t k h x hx
  cases t with
  | nil => cases hx
  | cons y t => simp [reach] at h
theorem mute_pure {α : Type} (a : α) : Mute (pure a : Prog α) := mute_ret a
theorem mute_panic {α : Type} : Mute (.panic : Prog α) := by
  intro t k h x hx
  cases t with
  | nil => cases hx
  | cons y t => simp [reach] at h
theorem mute_send {α : Type} {o : Out} {k : Prog α} (ho : Heard.isKey (.out o) = false) (hk : Mute k) : Mute (.send o k) := by
  intro t k' h x hx
  cases t with
  | nil => cases hx
  | cons y t =>
    cases y <;> simp only [reach, reduceCtorEq] at h
    split at h
    · rename_i e
      rcases List.mem_cons.1 hx with rfl | hx
      · rw [← e]; exact ho
      · exact hk _ _ h x hx
    · cases h
theorem mute_recvHci {acc : Kind → Bool} : Mute (recvHci acc) := by
  intro t k' h x hx
  cases t with
  | nil => cases hx
  | cons y t =>
    cases y <;> simp only [recvHci, reach, reduceCtorEq] at h
    split at h
    · rcases List.mem_cons.1 hx with rfl | hx
      · rfl
      · exact mute_ret _ _ _ h x hx
    · cases h
theorem mute_recvLmp {acc : Lmp → Bool} : Mute (recvLmp acc) := by
  intro t k' h x hx
  cases t with
  | nil => cases hx
  | cons y t =>
    cases y <;> simp only [recvLmp, reach, reduceCtorEq] at h
    split at h
    · rcases List.mem_cons.1 hx with rfl | hx
      · rfl
      · exact mute_ret _ _ _ h x hx
    · cases h
theorem mute_wait {op : Opcode} : Mute (.wait op .ret) := by
  intro t k' h x hx
  cases t with
  | nil => cases hx
  | cons y t =>
    cases y <;> simp only [reach, reduceCtorEq] at h
    split at h
    · rcases List.mem_cons.1 hx with rfl | hx
      · rfl
      · exact mute_ret _ _ _ h x hx
    · cases h
theorem mute_userPasskey : Mute userPasskey := by
  refine mute_send rfl ?_
  intro t k' h x hx
  cases t with
  | nil => cases hx
  | cons y t =>
    cases y <;> simp only [reach, reduceCtorEq] at h
    rcases List.mem_cons.1 hx with rfl | hx
    · rfl
    · exact mute_ret _ _ _ h x hx
theorem mute_lmp (l : Lmp) : Mute (lmp l) := mute_send rfl (mute_ret _)
theorem mute_hci {e : Ev} (he : Heard.isKey (.out (.hci e)) = false) : Mute (hci e) := mute_send he (mute_ret _)
theorem mute_sendAccepted (l : Lmp) (op : Opcode) : Mute (sendAccepted l op) := mute_send rfl mute_wait
theorem mute_repeat {p : Prog Unit} (h : Mute p) : ∀ n, Mute (repeatN n p)
  | 0 => mute_ret ()
  | n + 1 => mute_bind h (fun _ => mute_repeat h n)

/-- Goes through a procedure that never tells of a key. -/
macro "mute" : tactic => `(tactic| repeat' first
  | exact mute_lmp _ | exact mute_hci rfl | exact mute_recvLmp | exact mute_recvHci | exact mute_sendAccepted _ _ | exact mute_pure _
  | exact mute_ret _ | exact mute_panic | exact mute_userPasskey | assumption
  | refine mute_bind ?_ (fun _ => ?_) | refine mute_repeat ?_ _ | split)

theorem mute_sendPublicKey (c : Curve) : Mute (sendPublicKey c) := by simp only [sendPublicKey]; mute
theorem mute_receivePublicKey : Mute receivePublicKey := by simp only [receivePublicKey]; mute
theorem mute_check (l : Lmp) : Mute (checkCommitment l) := by simp only [checkCommitment]; mute
theorem mute_sendCommitment (l : Lmp) : Mute (sendCommitment l) := by
  have := mute_check l
  simp only [sendCommitment]; mute
theorem mute_receiveCommitment : Mute receiveCommitment := by simp only [receiveCommitment]; mute
theorem mute_userConfirmation : Mute userConfirmation := by simp only [userConfirmation, recvReply]; mute
theorem mute_remoteOob : Mute remoteOob := by simp only [remoteOob, recvReply]; mute
theorem mute_stageI (p : Plan) : Mute (stage1I p) := by
  have h1 := mute_sendCommitment
  have h2 := mute_userConfirmation
  have h3 := mute_remoteOob
  have h4 : Mute passkeyRoundI := mute_bind (mute_lmp _) fun _ => mute_bind mute_recvLmp fun _ => h1 _
  have h5 := mute_repeat h4 passkeyRounds
  simp only [stage1I]
  generalize repeatN passkeyRounds passkeyRoundI = r at h5
  generalize userConfirmation = u at h2
  generalize remoteOob = v at h3
  repeat' first
    | exact h1 _
    | assumption
    | exact mute_pure _
    | exact mute_lmp _
    | exact mute_recvLmp
    | exact mute_userPasskey
    | exact mute_hci rfl
    | refine mute_bind ?_ (fun _ => ?_)
    | split
theorem mute_stageR (p : Plan) : Mute (stage1R p) := by
  have h1 := mute_receiveCommitment
  have h2 := mute_userConfirmation
  have h3 := mute_remoteOob
  have h4 := mute_check
  have h6 : Mute passkeyRoundR := mute_bind mute_recvLmp fun _ => mute_bind (h4 _) fun _ => h1
  have h5 := mute_repeat h6 passkeyRounds
  simp only [stage1R]
  generalize repeatN passkeyRounds passkeyRoundR = r at h5
  generalize userConfirmation = u at h2
  generalize remoteOob = v at h3
  generalize receiveCommitment = w at h1
  repeat' first
    | exact h4 _
    | assumption
    | exact mute_pure _
    | exact mute_lmp _
    | exact mute_recvLmp
    | exact mute_userPasskey
    | exact mute_hci rfl
    | refine mute_bind ?_ (fun _ => ?_)
    | split
theorem mute_supported (f : Feats) (n : Nat) (b : Word → Bool) : Mute (supportedOnBoth f n b) := by
  simp only [supportedOnBoth]; mute
theorem mute_sendChallenge : Mute sendChallenge := by simp only [sendChallenge]; mute
theorem mute_receiveChallenge : Mute receiveChallenge := by simp only [receiveChallenge]; mute

theorem late_key (t : KeyType) : Late (do
    hci (.linkKeyNotification t)
    return true) := by
  intro t' k h hx
  cases t' with
  | nil => obtain ⟨x, hx, -⟩ := hx; cases hx
  | cons y t' =>
    have h : reach (.send (.hci (.linkKeyNotification t)) (.ret true)) (y :: t') = some k := h
    cases y <;> simp only [reach, reduceCtorEq] at h
    split at h
    · cases t' with
      | nil => simpa [reach] using h.symm
      | cons z t' => simp [reach] at h
    · cases h

/-- Goes through a procedure that tells of a key at its end. -/
macro "late" : tactic => `(tactic| repeat' first
  | exact late_key _
  | exact late_mute (mute_pure _)
  | exact late_mute mute_panic
  | refine late_bind (by first | exact mute_sendChallenge | exact mute_receiveChallenge | exact mute_sendPublicKey _ | exact mute_receivePublicKey | exact mute_stageI _ | exact mute_stageR _ | exact mute_supported _ _ _ | (mute; done)) (fun _ => ?_)
  | split)

/-- C97. Whatever the peer and the host do, and however far a pairing has come: when the host is told of a key, the procedure
has ended with success, so that the conversation is the one above. -/
theorem C97_key_last {t : List Heard} {k : Prog Bool} (hk : ∃ x, .out (.hci (.linkKeyNotification x)) ∈ t) :
    (∀ f, reach (sspInitiate f) t = some k → replay (sspInitiate f) t = some true) ∧
    (∀ p, reach (sspRespond p) t = some k → replay (sspRespond p) t = some true) ∧
    (reach legacyInitiate t = some k → replay legacyInitiate t = some true) ∧
    (reach legacyRespond t = some k → replay legacyRespond t = some true) := by
  obtain ⟨x, hx⟩ := hk
  have use : ∀ {p : Prog Bool}, Late p → reach p t = some k → replay p t = some true := by
    intro p hp h
    have := hp t k h ⟨_, hx, rfl⟩
    rw [reach_replay, h, this]
  refine ⟨fun f => use ?_, fun p => use ?_, use ?_, use ?_⟩
  · simp only [sspInitiate, initiateRest]; late
  · simp only [sspRespond, respondRest]; late
  · simp only [legacyInitiate]; late
  · simp only [legacyRespond]; late

/-! ## Conversations that take place -/

/-- A peer and a host that give, whenever something is awaited, the first of these packets or commands that fits, that accept
or refuse each packet as `ok` says, and a user who types the passkey. -/
def meet {α : Type} (packets : List Lmp) (commands : List Cmd) (ok : Opcode → Bool) : Prog α → List Heard × Option α
  | .ret a => ([], some a)
  | .send o k => let r := meet packets commands ok k; (.out o :: r.1, r.2)
  | .recvHci acc k => match commands.find? (fun c => acc c.kind) with
    | none => ([], none)
    | some c => let r := meet packets commands ok (k c); (.cmd c :: r.1, r.2)
  | .recvLmp acc k => match packets.find? acc with
    | none => ([], none)
    | some l => let r := meet packets commands ok (k l); (.pkt l :: r.1, r.2)
  | .wait op k => let r := meet packets commands ok (k (ok op)); (.verdict op (ok op) :: r.1, r.2)
  | .passkey k => let r := meet packets commands ok (k true); (.typed true :: r.1, r.2)
  | .panic => ([], none)

theorem replay_meet {α : Type} (packets : List Lmp) (commands : List Cmd) (ok : Opcode → Bool) (p : Prog α) (a : α) :
    (meet packets commands ok p).2 = some a → replay p (meet packets commands ok p).1 = some a := by
  induction p with
  | ret b => intro h; simpa [meet, replay] using h
  | send o k ih => intro h; simp only [meet] at h; simp [meet, replay, ih h]
  | recvHci acc k ih =>
    intro h
    simp only [meet] at h ⊢
    split at h
    · cases h
    · rename_i c hc
      have := List.find?_some hc
      simp [replay, this, ih c h]
  | recvLmp acc k ih =>
    intro h
    simp only [meet] at h ⊢
    split at h
    · cases h
    · rename_i c hc
      have := List.find?_some hc
      simp [replay, this, ih c h]
  | wait op k ih => intro h; simp only [meet] at h; simp [meet, replay, ih _ h]
  | passkey k ih => intro h; simp only [meet] at h; simp [meet, replay, ih _ h]
  | panic => intro h; cases h

/-- A peer that plays its part, with these IO capabilities and key length. -/
def fairPeer (q : Params) (length : Nat) : List Lmp :=
  [.ioRes (some q), .featuresRes ⟨true, true, true⟩, .encapsulatedHeader length, .encapsulatedPayload, .confirm true, .number, .dhkeyCheck, .sres, .auRand]

def fairHost (p : Params) : List Cmd := [⟨.ioReply, 1, p⟩, ⟨.confirmReply, 1, p⟩, ⟨.oobReply, 1, p⟩]

example : replay (sspInitiate ⟨⟨true, true, true⟩, ⟨true, true, true⟩, ⟨false, false, false⟩⟩)
    (meet (fairPeer ⟨.keyboardOnly, .notPresent, .general⟩ 64) (fairHost ⟨.displayYesNo, .notPresent, .generalMitm⟩) (fun _ => true)
      (sspInitiate ⟨⟨true, true, true⟩, ⟨true, true, true⟩, ⟨false, false, false⟩⟩)).1 = some true :=
  replay_meet _ _ _ _ _ (by decide +kernel)

example : replay (sspRespond (some ⟨.displayOnly, .notPresent, .noBonding⟩))
    (meet (fairPeer ⟨.displayOnly, .notPresent, .noBonding⟩ 48) (fairHost ⟨.displayYesNo, .notPresent, .generalMitm⟩) (fun _ => true)
      (sspRespond (some ⟨.displayOnly, .notPresent, .noBonding⟩))).1 = some true :=
  replay_meet _ _ _ _ _ (by decide +kernel)

/-- C97. The host of the responder has said that it has no out-of-band data, and yet it is told of an authenticated key: the
answer is not looked at. -/
theorem C97_oob_violated : ∃ t, replay (sspRespond (some ⟨.displayOnly, .notPresent, .general⟩)) t = some true ∧
    .command .oobNeg ∈ host t ∧ .event (.linkKeyNotification .authenticatedP256) ∈ host t :=
  ⟨_, replay_meet (fairPeer ⟨.displayOnly, .notPresent, .general⟩ 64) [⟨.ioReply, 1, ⟨.displayOnly, .p256, .general⟩⟩, ⟨.oobNeg, 1, noParams⟩] (fun _ => true) _ true
    (by decide +kernel), by decide +kernel, by decide +kernel⟩

/-- C97. The peer refuses the public key, the nonces, and what else the initiator sends but the DHKey check, and yet the pairing
succeeds; the responder goes on even if its DHKey check is refused. -/
theorem C97_refused_violated :
    (∃ t, replay (sspInitiate ⟨⟨true, true, true⟩, ⟨true, true, true⟩, ⟨false, false, false⟩⟩) t = some true ∧
      .verdict .encapsulatedHeader false ∈ t ∧ .verdict .simplePairingNumber false ∈ t ∧ ∀ op, .verdict op true ∈ t → op = .dhkeyCheck) ∧
    ∃ t, replay (sspRespond (some ⟨.displayOnly, .notPresent, .general⟩)) t = some true ∧ .verdict .dhkeyCheck false ∈ t ∧
      .event (.simplePairingComplete .success) ∈ host t := by
  refine ⟨⟨_, replay_meet (fairPeer ⟨.displayOnly, .notPresent, .general⟩ 64) (fairHost ⟨.displayOnly, .notPresent, .general⟩) (fun op => op = .dhkeyCheck) _ true
    (by decide +kernel), by decide +kernel, by decide +kernel, ?_⟩,
    _, replay_meet (fairPeer ⟨.displayOnly, .notPresent, .general⟩ 64) (fairHost ⟨.displayOnly, .notPresent, .general⟩) (fun _ => false) _ true
    (by decide +kernel), by decide +kernel, by decide +kernel⟩
  intro op
  cases op <;> decide +kernel

end Verif.Lmp
