import Verif.Lmp.ManagerSpec

/-! # Procedures answer each command they take, at once and once -/

namespace Verif.Lmp

/-- `Fine s o p`: the program `p`, which has still to answer a command of kind `o` (or none), answers it
before it waits for anything, and answers every command it takes later in the same way, and nothing else.
If `s` holds, it does not panic as long as all packets are well-formed. -/
def Fine {α : Type} (s : Bool) : Option Kind → Prog α → Prop
  | none, .ret _ => True
  | some _, .ret _ => False
  | o, .send (.lmp _) p => Fine s o p
  | none, .send (.hci (.answer _ _)) _ => False
  | some k, .send (.hci (.answer k' _)) p => k' = k ∧ Fine s none p
  | o, .send (.hci _) p => Fine s o p
  | none, .recvHci acc k => ∀ c : Cmd, acc c.kind = true → Fine s (some c.kind) (k c)
  | none, .recvLmp acc k => ∀ l, acc l = true → (s = true → l.wellFormed = true) → Fine s none (k l)
  | none, .wait _ k => ∀ b, Fine s none (k b)
  | none, .passkey k => ∀ b, Fine s none (k b)
  | some _, .recvHci _ _ => False
  | some _, .recvLmp _ _ => False
  | some _, .wait _ _ => False
  | some _, .passkey _ => False
  | _, .panic => s = false

variable {α β : Type} {s : Bool}

theorem Fine.bind {f : α → Prog β} (hf : ∀ a, Fine s none (f a)) :
    ∀ {o : Option Kind} {p : Prog α}, Fine s o p → Fine s o (p.bind f)
  | none, .ret a, _ => hf a
  | some _, .ret _, h => by simp [Fine] at h
  | none, .send (.lmp _) p, h => Fine.bind (p := p) hf h
  | some _, .send (.lmp _) p, h => Fine.bind (p := p) hf h
  | none, .send (.hci e) p, h => by
    cases e <;> first | exact Fine.bind (p := p) hf h | (simp [Fine] at h)
  | some k, .send (.hci e) p, h => by
    cases e <;> first | exact Fine.bind (p := p) hf h | exact ⟨h.1, Fine.bind (p := p) hf h.2⟩
  | none, .recvHci acc k, h => fun c hc => Fine.bind (p := k c) hf (h c hc)
  | none, .recvLmp acc k, h => fun l hl hw => Fine.bind (p := k l) hf (h l hl hw)
  | none, .wait _ k, h => fun b => Fine.bind (p := k b) hf (h b)
  | none, .passkey k, h => fun b => Fine.bind (p := k b) hf (h b)
  | some _, .recvHci _ _, h => by simp [Fine] at h
  | some _, .recvLmp _ _, h => by simp [Fine] at h
  | some _, .wait _ _, h => by simp [Fine] at h
  | some _, .passkey _, h => by simp [Fine] at h
  | none, .panic, h => h
  | some _, .panic, h => h

theorem Fine.seq {f : α → Prog β} {o : Option Kind} {p : Prog α} (h : Fine s o p) (hf : ∀ a, Fine s none (f a)) :
    Fine s o (p >>= f) := Fine.bind hf h

theorem Fine.pure (a : α) : Fine s none (pure a : Prog α) := trivial

/-- Events that answer no command. -/
def Ev.plain : Ev → Bool | .answer _ _ => false | _ => true

theorem Fine.hciOther {e : Ev} (he : e.plain = true) : Fine s none (hci e) := by
  cases e <;> first | trivial | (simp [Ev.plain] at he)

theorem Fine.lmp (p : Lmp) : Fine s none (lmp p) := trivial

theorem Fine.answer {f : Unit → Prog β} {k : Kind} {st : Status} (h : Fine s none (f ())) :
    Fine s (some k) (hci (.answer k st) >>= f) := ⟨rfl, h⟩

theorem Fine.recvHci {acc : Kind → Bool} {f : Cmd → Prog β} (h : ∀ c : Cmd, acc c.kind = true → Fine s (some c.kind) (f c)) :
    Fine s none (Lmp.recvHci acc >>= f) := h

theorem Fine.recvLmp {acc : Lmp → Bool} {f : Lmp → Prog β}
    (h : ∀ l, acc l = true → (s = true → l.wellFormed = true) → Fine s none (f l)) :
    Fine s none (Lmp.recvLmp acc >>= f) := h

theorem Fine.sendAccepted (p : Lmp) (op : Opcode) : Fine s none (sendAccepted p op) := fun _ => trivial

theorem fine_recvReply (pos neg : Kind) : Fine s none (recvReply pos neg) :=
  Fine.recvHci fun _ _ => Fine.answer trivial

theorem fine_repeatN {p : Prog Unit} (h : Fine s none p) : ∀ n, Fine s none (repeatN n p)
  | 0 => trivial
  | n + 1 => Fine.seq h (fun _ => fine_repeatN h n)

theorem fine_supported (f : Feats) (n : Nat) (b : Word → Bool) : Fine s none (supportedOnBoth f n b) := by
  unfold supportedOnBoth
  split
  · refine Fine.seq (Fine.lmp _) fun _ => Fine.recvLmp fun l _ _ => ?_
    split <;> trivial
  · trivial

theorem fine_featuresRespond (f : Feats) : Fine s none (featuresRespond f) := by
  refine Fine.recvLmp fun l _ _ => ?_
  split <;> trivial

theorem fine_sendChallenge : Fine s none sendChallenge :=
  Fine.seq (Fine.lmp _) fun _ => Fine.recvLmp fun _ _ _ => trivial

theorem fine_receiveChallenge : Fine s none receiveChallenge :=
  Fine.recvLmp fun _ _ _ => Fine.lmp _

theorem fine_legacyInitiate : Fine s none legacyInitiate := by
  refine Fine.seq (Fine.hciOther rfl) fun _ => Fine.recvHci fun c _ => Fine.answer ?_
  refine Fine.seq (Fine.sendAccepted _ _) fun _ => Fine.seq (Fine.lmp _) fun _ => Fine.recvLmp fun _ _ _ => ?_
  refine Fine.seq fine_sendChallenge fun ok => Fine.seq fine_receiveChallenge fun _ => ?_
  split
  · exact Fine.seq (Fine.hciOther rfl) fun _ => trivial
  · trivial

theorem fine_legacyRespond : Fine s none legacyRespond := by
  refine Fine.seq (Fine.hciOther rfl) fun _ => Fine.recvHci fun c _ => Fine.answer ?_
  refine Fine.seq (Fine.lmp _) fun _ => Fine.recvLmp fun _ _ _ => Fine.seq (Fine.lmp _) fun _ => ?_
  refine Fine.seq fine_receiveChallenge fun _ => Fine.seq fine_sendChallenge fun ok => ?_
  split
  · exact Fine.seq (Fine.hciOther rfl) fun _ => trivial
  · trivial

theorem fine_sendPublicKey (c : Curve) : Fine s none (sendPublicKey c) := by
  refine Fine.seq (Fine.sendAccepted _ _) fun _ => fine_repeatN ?_ _
  exact fun _ => trivial

theorem fine_receivePublicKey : Fine s none receivePublicKey := by
  refine Fine.recvLmp fun l hl hw => ?_
  cases l <;> first | (simp [isHeader] at hl; done) | skip
  rename_i n
  simp only
  cases s
  · cases curveOfSize n with
    | none => rfl
    | some c =>
      exact Fine.seq (Fine.lmp _) fun _ =>
        Fine.seq (fine_repeatN (Fine.recvLmp fun _ _ _ => Fine.lmp _) _) fun _ => trivial
  · have hw := hw rfl
    simp only [Lmp.wellFormed, Bool.or_eq_true, decide_eq_true_eq] at hw
    have : ∃ c, curveOfSize n = some c := by
      rcases hw with rfl | rfl
      · exact ⟨_, rfl⟩
      · exact ⟨_, rfl⟩
    obtain ⟨c, hc⟩ := this
    rw [hc]
    exact Fine.seq (Fine.lmp _) fun _ =>
        Fine.seq (fine_repeatN (Fine.recvLmp fun _ _ _ => Fine.lmp _) _) fun _ => trivial

theorem fine_check {l : Lmp} (hl : isConfirm l = true) (hw : s = true → l.wellFormed = true) :
    Fine s none (checkCommitment l) := by
  cases l <;> first | (simp [isConfirm] at hl; done) | skip
  rename_i z
  cases z
  · cases s
    · exact rfl
    · simp [Lmp.wellFormed] at hw
  · trivial

theorem fine_receiveCommitment : Fine s none receiveCommitment :=
  Fine.seq (Fine.lmp _) fun _ => Fine.recvLmp fun _ _ _ => Fine.seq (Fine.lmp _) fun _ =>
    Fine.seq (Fine.sendAccepted _ _) fun _ => trivial

theorem fine_sendCommitment {l : Lmp} (hl : isConfirm l = true) (hw : s = true → l.wellFormed = true) :
    Fine s none (sendCommitment l) :=
  Fine.seq (fine_check hl hw) fun _ => Fine.seq (Fine.sendAccepted _ _) fun _ => Fine.recvLmp fun _ _ _ => Fine.lmp _

theorem fine_userConfirmation : Fine s none userConfirmation :=
  Fine.seq (Fine.hciOther rfl) fun _ => fine_recvReply _ _

theorem fine_remoteOob : Fine s none remoteOob :=
  Fine.seq (Fine.hciOther rfl) fun _ => fine_recvReply _ _

theorem fine_userPasskey : Fine s none userPasskey := fun _ => trivial

theorem fine_roundI : Fine s none passkeyRoundI :=
  Fine.seq (Fine.lmp _) fun _ => Fine.recvLmp fun _ hl hw => fine_sendCommitment hl hw

theorem fine_roundR : Fine s none passkeyRoundR :=
  Fine.recvLmp fun _ hl hw => Fine.seq (fine_check hl hw) fun _ => fine_receiveCommitment

theorem fine_stage1I (p : Plan) : Fine s none (stage1I p) := by
  obtain ⟨m, kI, kR, oI, oR⟩ := p
  have numeric : Fine s none (stage1I ⟨.justWork, kI, kR, oI, oR⟩) := by
    refine Fine.recvLmp fun l hl hw => Fine.seq (fine_sendCommitment hl hw) fun _ => ?_
    refine Fine.seq fine_userConfirmation fun ok => ?_
    split
    · trivial
    · trivial
  cases m
  · have h : ∀ ok : Bool, Fine s none (if ok then do
          lmp (.confirm true)
          let c ← recvLmp isConfirm
          sendCommitment c
          return true
        else return false : Prog Bool) := by
      intro ok
      split
      · exact Fine.seq (Fine.lmp _) fun _ => Fine.recvLmp fun _ hl hw => Fine.seq (fine_sendCommitment hl hw) fun _ => trivial
      · trivial
    cases oI
    · exact h true
    · exact Fine.seq fine_remoteOob h
  · exact numeric
  · exact numeric
  · cases kI
    · refine Fine.seq (Fine.hciOther rfl) fun _ => Fine.seq (Fine.lmp _) fun _ => Fine.recvLmp fun l hl hw => ?_
      split
      · trivial
      · rename_i h
        have hl' : isConfirm l = true := by
          cases l <;> first | (simp [isConfirmOrNot] at hl; done) | rfl | exact absurd rfl (h _)
        exact Fine.seq (fine_sendCommitment hl' hw) fun _ => Fine.seq (fine_repeatN fine_roundI _) fun _ => trivial
    · refine Fine.seq fine_userPasskey fun ok => ?_
      split
      · exact Fine.seq (Fine.lmp _) fun _ => Fine.recvLmp fun l hl hw =>
          Fine.seq (fine_sendCommitment hl hw) fun _ => Fine.seq (fine_repeatN fine_roundI _) fun _ => trivial
      · trivial

theorem fine_stage1R (p : Plan) : Fine s none (stage1R p) := by
  obtain ⟨m, kI, kR, oI, oR⟩ := p
  cases m
  · cases oR
    · exact Fine.recvLmp fun l hl hw => Fine.seq (fine_check hl hw) fun _ => Fine.seq fine_receiveCommitment fun _ => trivial
    · exact Fine.seq fine_remoteOob fun ok =>
        Fine.recvLmp fun l hl hw => Fine.seq (fine_check hl hw) fun _ => Fine.seq fine_receiveCommitment fun _ => trivial
  · exact Fine.seq fine_receiveCommitment fun _ => Fine.seq fine_userConfirmation fun _ => trivial
  · exact Fine.seq fine_receiveCommitment fun _ => Fine.seq fine_userConfirmation fun _ => trivial
  · cases kR
    · refine Fine.seq (Fine.hciOther rfl) fun _ => Fine.recvLmp fun l hl hw => ?_
      split
      · trivial
      · rename_i h
        have hl' : isConfirm l = true := by
          cases l <;> first | (simp [isConfirmOrFailed] at hl; done) | rfl | exact absurd rfl h
        exact Fine.seq (fine_check hl' hw) fun _ => Fine.seq fine_receiveCommitment fun _ =>
          Fine.seq (fine_repeatN fine_roundR _) fun _ => trivial
    · refine Fine.seq fine_userPasskey fun ok => Fine.recvLmp fun l hl hw => ?_
      split
      · exact Fine.seq (fine_check hl hw) fun _ => Fine.seq fine_receiveCommitment fun _ =>
          Fine.seq (fine_repeatN fine_roundR _) fun _ => trivial
      · trivial

theorem fine_initiateRest (p : Plan) (c : Curve) : Fine s none (initiateRest p c) := by
  refine Fine.seq (fine_sendPublicKey _) fun _ => Fine.seq fine_receivePublicKey fun _ => Fine.seq (fine_stage1I _) fun ok => ?_
  split
  · refine Fine.seq (Fine.sendAccepted _ _) fun ok => ?_
    split
    · refine Fine.recvLmp fun _ _ _ => Fine.seq (Fine.lmp _) fun _ => Fine.seq (Fine.hciOther rfl) fun _ => ?_
      refine Fine.seq fine_sendChallenge fun ok => Fine.seq fine_receiveChallenge fun _ => ?_
      split
      · trivial
      · trivial
    · trivial
  · trivial

theorem fine_sspInitiate (f : Feats) : Fine s none (sspInitiate f) := by
  refine Fine.seq (Fine.hciOther rfl) fun _ => Fine.recvHci fun c _ => ?_
  split
  · refine Fine.answer (Fine.seq (Fine.lmp _) fun _ => Fine.recvLmp fun l hl hw => ?_)
    split
    · exact Fine.seq (Fine.hciOther rfl) fun _ => Fine.seq (fine_supported _ _ _) fun _ => fine_initiateRest _ _
    · rename_i h
      cases l <;> first | (simp [isIoRes] at hl; done) | skip
      rename_i p
      cases s
      · exact rfl
      · cases p with
        | none => simp [Lmp.wellFormed] at hw
        | some p => exact absurd rfl (h p)
  · exact Fine.answer (Fine.seq (Fine.hciOther rfl) fun _ => trivial)

theorem fine_respondRest (p : Plan) : Fine s none (respondRest p) := by
  refine Fine.seq fine_receivePublicKey fun _ => Fine.seq (fine_sendPublicKey _) fun _ => Fine.seq (fine_stage1R _) fun r => ?_
  cases r with
  | err => trivial
  | ok neg =>
    refine Fine.recvLmp fun l _ _ => ?_
    split
    · trivial
    · split
      · trivial
      · refine Fine.seq (Fine.lmp _) fun _ => Fine.seq (Fine.sendAccepted _ _) fun _ => Fine.seq (Fine.hciOther rfl) fun _ => ?_
        refine Fine.seq fine_receiveChallenge fun _ => Fine.seq fine_sendChallenge fun ok => ?_
        split
        · trivial
        · trivial

theorem fine_sspRespond (i : Option Params) (hi : s = true → i.isSome = true) : Fine s none (sspRespond i) := by
  cases i with
  | none =>
    cases s
    · exact rfl
    · simp at hi
  | some i =>
    refine Fine.seq (Fine.hciOther rfl) fun _ => Fine.seq (Fine.hciOther rfl) fun _ => Fine.recvHci fun c _ => ?_
    split
    · exact Fine.answer (Fine.seq (Fine.lmp _) fun _ => fine_respondRest _)
    · exact Fine.answer trivial

theorem fine_authInitiate (f : Feats) : Fine s none (authInitiate f) := by
  refine Fine.recvHci fun c _ => Fine.answer (Fine.seq (Fine.hciOther rfl) fun _ => ?_)
  refine Fine.seq (fine_recvReply _ _) fun ok => ?_
  split
  · refine Fine.seq fine_sendChallenge fun ok => ?_
    split <;> trivial
  · refine Fine.seq (fine_supported _ _ _) fun ok => ?_
    split
    · exact Fine.seq (fine_sspInitiate _) fun _ => trivial
    · exact Fine.seq fine_legacyInitiate fun _ => trivial

theorem fine_authRespond : Fine s none authRespond := by
  refine Fine.recvLmp fun l hl hw => ?_
  split
  · refine Fine.seq (Fine.hciOther rfl) fun _ => Fine.seq (fine_recvReply _ _) fun ok => ?_
    split <;> trivial
  · exact Fine.seq (fine_sspRespond _ hw) fun _ => trivial
  · exact Fine.seq fine_legacyRespond fun _ => trivial

theorem fine_aesCcm (f : Feats) : Fine s none (aesCcm f) := by
  refine Fine.seq (fine_supported _ _ _) fun ok => ?_
  split
  · exact fine_supported _ _ _
  · trivial

theorem fine_encInitiate (f : Feats) : Fine s none (encInitiate f) := by
  refine Fine.recvHci fun c _ => Fine.answer ?_
  exact Fine.seq (Fine.sendAccepted _ _) fun _ => Fine.seq (Fine.sendAccepted _ _) fun _ =>
    Fine.seq (Fine.sendAccepted _ _) fun _ => Fine.seq (fine_aesCcm _) fun _ => Fine.hciOther rfl

theorem fine_encRespond (f : Feats) : Fine s none (encRespond f) :=
  Fine.recvLmp fun _ _ _ => Fine.seq (Fine.lmp _) fun _ => Fine.recvLmp fun _ _ _ => Fine.seq (Fine.lmp _) fun _ =>
    Fine.recvLmp fun _ _ _ => Fine.seq (Fine.lmp _) fun _ => Fine.seq (fine_aesCcm _) fun _ => Fine.hciOther rfl

end Verif.Lmp
