import Verif.Lmp.TalkSpec
/-! # Helper lemmas for C123

Each packet that makes a procedure start brings what the procedure will spend: a packet that is sent costs one, and what it brings. -/
namespace Verif.Lmp.Say

/-- What a packet brings. -/
def worth : Lmp → Nat
  | .auRand => 1
  | .featuresReq _ => 1
  | .inRand => 4
  | .encryptionModeReq => 7
  | .ioReq _ => 75
  | _ => 0

/-- What a command brings. -/
def worthCmd : Kind → Nat
  | .authenticationRequested => 154
  | .setConnectionEncryption => 14
  | _ => 0

/-- What a procedure needs to go on, whatever it receives. -/
def Pays {α : Type} : Prog α → Nat → Prop
  | .ret _, _ => True
  | .send (.lmp l) k, n => worth l + 1 ≤ n ∧ Pays k (n - (worth l + 1))
  | .send (.hci _) k, n => Pays k n
  | .recvHci acc k, n => ∀ c, acc c.kind = true → Pays (k c) (n + worthCmd c.kind)
  | .recvLmp acc k, n => ∀ l, acc l = true → Pays (k l) (n + worth l)
  | .wait _ k, n => ∀ b, Pays (k b) n
  | .passkey k, n => ∀ b, Pays (k b) n
  | .panic, _ => True

theorem Pays.mono {α : Type} {p : Prog α} {n m : Nat} (h : Pays p n) (hm : n ≤ m) : Pays p m := by
  induction p generalizing n m with
  | ret _ => trivial
  | send o k ih =>
    cases o with
    | hci _ => exact ih h hm
    | lmp l => exact ⟨Nat.le_trans h.1 hm, ih h.2 (by omega)⟩
  | recvHci acc k ih => exact fun c hc => ih c (h c hc) (by omega)
  | recvLmp acc k ih => exact fun l hl => ih l (h l hl) (by omega)
  | wait _ k ih => exact fun b => ih b (h b) hm
  | passkey k ih => exact fun b => ih b (h b) hm
  | panic => trivial

theorem Pays.bind {α β : Type} {p : Prog α} {f : α → Prog β} {n m : Nat} (h : Pays p n) (hf : ∀ a, Pays (f a) m) : Pays (p.bind f) (n + m) := by
  induction p generalizing n with
  | ret a => exact (hf a).mono (by omega)
  | send o k ih =>
    cases o with
    | hci _ => exact ih h
    | lmp l =>
      refine ⟨Nat.le_trans h.1 (by omega), (ih h.2).mono ?_⟩
      have := h.1
      omega
  | recvHci acc k ih => exact fun c hc => (ih c (h c hc)).mono (by omega)
  | recvLmp acc k ih => exact fun l hl => (ih l (h l hl)).mono (by omega)
  | wait _ k ih => exact fun b => ih b (h b)
  | passkey k ih => exact fun b => ih b (h b)
  | panic => trivial

/-- The same with the sum given. -/
theorem Pays.bind' {α β : Type} {p : Prog α} {f : α → Prog β} {a b n : Nat} (h : Pays p a) (hf : ∀ x, Pays (f x) b) (e : a + b ≤ n) :
    Pays (p >>= f) n := (h.bind hf).mono e

theorem pays_pure {α : Type} (a : α) (n : Nat) : Pays (pure a : Prog α) n := trivial
theorem pays_ret {α : Type} (a : α) (n : Nat) : Pays (.ret a : Prog α) n := trivial
theorem pays_hci (e : Ev) : Pays (hci e) 0 := trivial
theorem pays_lmp (l : Lmp) : Pays (lmp l) (worth l + 1) := ⟨Nat.le_refl _, trivial⟩
theorem pays_sendAccepted (l : Lmp) (o : Opcode) : Pays (sendAccepted l o) (worth l + 1) := ⟨Nat.le_refl _, fun _ => trivial⟩
theorem pays_recvHci (acc : Kind → Bool) : Pays (recvHci acc) 0 := fun _ _ => trivial
theorem pays_recvLmp (acc : Lmp → Bool) : Pays (recvLmp acc) 0 := fun _ _ => trivial
theorem pays_recvReply (p q : Kind) : Pays (recvReply p q) 0 := fun _ _ => trivial

theorem pays_repeat {p : Prog Unit} {c : Nat} (h : Pays p c) : ∀ k, Pays (repeatN k p) (k * c)
  | 0 => trivial
  | k + 1 => by
    refine Pays.bind' h (fun _ => pays_repeat h k) ?_
    rw [Nat.succ_mul]
    omega

theorem pays_supported (f : Feats) (page : Nat) (bit : Word → Bool) : Pays (supportedOnBoth f page bit) 2 := by
  unfold supportedOnBoth
  split
  · refine Pays.bind' (pays_lmp _) (fun _ => Pays.bind' (b := 0) (pays_recvLmp _) (fun l => ?_) (Nat.le_refl _)) (by simp [worth])
    split <;> trivial
  · trivial

theorem pays_features (f : Feats) : Pays (featuresRespond f) 0 := by
  intro l hl
  cases l <;> simp only [isFeaturesReq, Bool.false_eq_true] at hl
  exact ⟨by simp [worth], trivial⟩

theorem pays_sendChallenge : Pays sendChallenge 2 :=
  Pays.bind' (pays_lmp _) (fun _ => Pays.bind' (b := 0) (pays_recvLmp _) (fun _ => trivial) (Nat.le_refl _)) (by decide)

theorem pays_receiveChallenge : Pays receiveChallenge 0 := by
  intro l hl
  cases l <;> simp only [isAuRand, Bool.false_eq_true] at hl
  exact ⟨by decide, trivial⟩

theorem pays_key {α : Type} (e : Ev) (b : Bool) (x y : α) : Pays (if b then (do hci e; return x) else return y : Prog α) 0 := by
  split <;> trivial

theorem pays_legacyInitiate : Pays legacyInitiate 8 := by
  unfold legacyInitiate
  refine Pays.bind' (b := 8) (pays_hci _) (fun _ => ?_) (by omega)
  refine Pays.bind' (b := 8) (pays_recvHci _) (fun c => ?_) (by omega)
  refine Pays.bind' (b := 8) (pays_hci _) (fun _ => ?_) (by omega)
  refine Pays.bind' (b := 3) (pays_sendAccepted _ _) (fun _ => ?_) (by decide)
  refine Pays.bind' (b := 2) (pays_lmp _) (fun _ => ?_) (by decide)
  refine Pays.bind' (b := 2) (pays_recvLmp _) (fun _ => ?_) (by omega)
  refine Pays.bind' (b := 0) pays_sendChallenge (fun ok => ?_) (by omega)
  refine Pays.bind' (b := 0) pays_receiveChallenge (fun _ => ?_) (by omega)
  exact pays_key _ _ _ _

theorem pays_legacyRespond : Pays legacyRespond 4 := by
  unfold legacyRespond
  refine Pays.bind' (b := 4) (pays_hci _) (fun _ => ?_) (by omega)
  refine Pays.bind' (b := 4) (pays_recvHci _) (fun c => ?_) (by omega)
  refine Pays.bind' (b := 4) (pays_hci _) (fun _ => ?_) (by omega)
  refine Pays.bind' (b := 3) (pays_lmp _) (fun _ => ?_) (by decide)
  refine Pays.bind' (b := 3) (pays_recvLmp _) (fun _ => ?_) (by omega)
  refine Pays.bind' (b := 2) (pays_lmp _) (fun _ => ?_) (by decide)
  refine Pays.bind' (b := 2) pays_receiveChallenge (fun _ => ?_) (by omega)
  refine Pays.bind' (b := 0) pays_sendChallenge (fun ok => ?_) (by omega)
  exact pays_key _ _ _ _

theorem pays_sendPublicKey (c : Curve) : Pays (sendPublicKey c) 5 := by
  refine Pays.bind' (b := 4) (pays_sendAccepted _ _) (fun _ => ?_) (by simp [worth])
  refine Pays.mono (pays_repeat (c := 1) ?_ _) ?_
  · exact Pays.bind' (b := 0) (pays_sendAccepted _ _) (fun _ => pays_pure _ _) (by decide)
  cases c <;> decide

theorem pays_receivePublicKey : Pays receivePublicKey 5 := by
  refine Pays.bind' (b := 5) (pays_recvLmp _) (fun l => ?_) (by omega)
  split
  · split
    · trivial
    · rename_i c _
      refine Pays.bind' (b := 4) (pays_lmp _) (fun _ => ?_) (by decide)
      refine Pays.bind' (b := 0) ((pays_repeat (c := 1) ?_ _).mono (m := 4) ?_) (fun _ => trivial) (by omega)
      · exact Pays.bind' (b := 1) (pays_recvLmp _) (fun _ => pays_lmp _) (by decide)
      · cases c <;> decide
  · trivial

theorem pays_check (l : Lmp) : Pays (checkCommitment l) 0 := by
  unfold checkCommitment
  split <;> trivial

theorem pays_receiveCommitment : Pays receiveCommitment 3 := by
  unfold receiveCommitment
  refine Pays.bind' (b := 2) (pays_lmp _) (fun _ => ?_) (by decide)
  refine Pays.bind' (b := 2) (pays_recvLmp _) (fun _ => ?_) (by omega)
  refine Pays.bind' (b := 1) (pays_lmp _) (fun _ => ?_) (by decide)
  exact Pays.bind' (b := 0) (pays_sendAccepted _ _) (fun _ => trivial) (by decide)

theorem pays_sendCommitment (l : Lmp) : Pays (sendCommitment l) 2 := by
  unfold sendCommitment
  refine Pays.bind' (b := 2) (pays_check _) (fun _ => ?_) (by omega)
  refine Pays.bind' (b := 1) (pays_sendAccepted _ _) (fun _ => ?_) (by decide)
  exact Pays.bind' (b := 1) (pays_recvLmp _) (fun _ => pays_lmp _) (by decide)

theorem pays_userConfirmation : Pays userConfirmation 0 := Pays.bind' (b := 0) (pays_hci _) (fun _ => pays_recvReply _ _) (by omega)
theorem pays_userPasskey : Pays userPasskey 0 := fun _ => trivial
theorem pays_remoteOob : Pays remoteOob 0 := Pays.bind' (b := 0) (pays_hci _) (fun _ => pays_recvReply _ _) (by omega)

theorem pays_roundI : Pays passkeyRoundI 3 := by
  unfold passkeyRoundI
  refine Pays.bind' (b := 2) (pays_lmp _) (fun _ => ?_) (by decide)
  exact Pays.bind' (b := 2) (pays_recvLmp _) (fun _ => pays_sendCommitment _) (by omega)

theorem pays_roundR : Pays passkeyRoundR 3 := by
  unfold passkeyRoundR
  refine Pays.bind' (b := 3) (pays_recvLmp _) (fun _ => ?_) (by omega)
  exact Pays.bind' (b := 3) (pays_check _) (fun _ => pays_receiveCommitment) (by omega)

theorem pays_stage1I (p : Plan) : Pays (stage1I p) 60 := by
  have rounds : Pays (do repeatN passkeyRounds passkeyRoundI; return true : Prog Bool) 57 :=
    Pays.bind' (b := 0) (pays_repeat pays_roundI _) (fun _ => trivial) (by decide)
  have num : Pays (do
      let c ← recvLmp isConfirm
      sendCommitment c
      if ← userConfirmation then return true
      else do
        lmp .numericFailed
        return false : Prog Bool) 60 := by
    refine Pays.bind' (b := 60) (pays_recvLmp _) (fun c => ?_) (by omega)
    refine Pays.bind' (b := 58) (pays_sendCommitment _) (fun _ => ?_) (by omega)
    refine Pays.bind' (b := 58) pays_userConfirmation (fun ok => ?_) (by omega)
    cases ok
    · exact Pays.bind' (b := 0) (pays_lmp _) (fun _ => trivial) (by decide)
    · trivial
  unfold stage1I
  split
  · exact num
  · exact num
  · split
    · refine Pays.bind' (b := 60) pays_userPasskey (fun ok => ?_) (by omega)
      cases ok
      · exact Pays.bind' (b := 0) (pays_lmp _) (fun _ => trivial) (by decide)
      · refine Pays.bind' (b := 59) (pays_lmp _) (fun _ => ?_) (by decide)
        refine Pays.bind' (b := 59) (pays_recvLmp _) (fun c => ?_) (by omega)
        exact Pays.bind' (b := 57) (pays_sendCommitment _) (fun _ => rounds) (by omega)
    · refine Pays.bind' (b := 60) (pays_hci _) (fun _ => ?_) (by omega)
      refine Pays.bind' (b := 59) (pays_lmp _) (fun _ => ?_) (by decide)
      refine Pays.bind' (b := 59) (pays_recvLmp _) (fun c => ?_) (by omega)
      split
      · trivial
      · exact Pays.bind' (b := 57) (pays_sendCommitment _) (fun _ => rounds) (by omega)
  · have rest (ok : Bool) : Pays (if ok = true then do lmp (.confirm true); let c ← recvLmp isConfirm; sendCommitment c; return true
        else return false : Prog Bool) 60 := by
      split
      · refine Pays.bind' (b := 59) (pays_lmp _) (fun _ => ?_) (by decide)
        refine Pays.bind' (b := 59) (pays_recvLmp _) (fun c => ?_) (by omega)
        exact Pays.bind' (b := 0) (pays_sendCommitment _) (fun _ => trivial) (by omega)
      · trivial
    split
    · exact Pays.bind' (b := 60) pays_remoteOob rest (by omega)
    · exact rest true

theorem pays_stage1R (p : Plan) : Pays (stage1R p) 60 := by
  have rounds : Pays (do repeatN passkeyRounds passkeyRoundR; return .ok false : Prog StageR) 57 :=
    Pays.bind' (b := 0) (pays_repeat pays_roundR _) (fun _ => trivial) (by decide)
  have all (c : Lmp) : Pays (do checkCommitment c; receiveCommitment; repeatN passkeyRounds passkeyRoundR; return .ok false : Prog StageR) 60 :=
    Pays.bind' (b := 60) (pays_check _) (fun _ => Pays.bind' (b := 57) pays_receiveCommitment (fun _ => rounds) (by omega)) (by omega)
  have num : Pays (do
      receiveCommitment
      let ok ← userConfirmation
      return .ok (!ok) : Prog StageR) 60 := by
    refine Pays.bind' (b := 0) pays_receiveCommitment (fun c => ?_) (by omega)
    exact Pays.bind' (b := 0) pays_userConfirmation (fun ok => trivial) (by omega)
  unfold stage1R
  split
  · exact num
  · exact num
  · split
    · refine Pays.bind' (b := 60) pays_userPasskey (fun ok => ?_) (by omega)
      refine Pays.bind' (b := 60) (pays_recvLmp _) (fun c => ?_) (by omega)
      cases ok
      · exact Pays.bind' (b := 0) (pays_lmp _) (fun _ => trivial) (by decide)
      · exact all c
    · refine Pays.bind' (b := 60) (pays_hci _) (fun _ => ?_) (by omega)
      refine Pays.bind' (b := 60) (pays_recvLmp _) (fun c => ?_) (by omega)
      split
      · trivial
      · exact all _
  · have rest : Pays (do let c ← recvLmp isConfirm; checkCommitment c; receiveCommitment; return .ok false : Prog StageR) 60 := by
      refine Pays.bind' (b := 60) (pays_recvLmp _) (fun c => ?_) (by omega)
      refine Pays.bind' (b := 60) (pays_check _) (fun _ => ?_) (by omega)
      exact Pays.bind' (b := 0) pays_receiveCommitment (fun _ => trivial) (by omega)
    split
    · exact Pays.bind' (b := 60) pays_remoteOob (fun _ => rest) (by omega)
    · exact rest

theorem pays_initiateRest (p : Plan) (c : Curve) : Pays (initiateRest p c) 74 := by
  unfold initiateRest
  refine Pays.bind' (b := 69) (pays_sendPublicKey _) (fun _ => ?_) (by omega)
  refine Pays.bind' (b := 64) pays_receivePublicKey (fun _ => ?_) (by omega)
  refine Pays.bind' (b := 4) (pays_stage1I _) (fun ok => ?_) (by omega)
  cases ok
  · exact Pays.bind' (b := 0) (pays_hci _) (fun _ => trivial) (by omega)
  · refine Pays.bind' (b := 3) (pays_sendAccepted _ _) (fun ok => ?_) (by decide)
    cases ok
    · exact Pays.bind' (b := 0) (pays_hci _) (fun _ => trivial) (by omega)
    · refine Pays.bind' (b := 3) (pays_recvLmp _) (fun _ => ?_) (by omega)
      refine Pays.bind' (b := 2) (pays_lmp _) (fun _ => ?_) (by decide)
      refine Pays.bind' (b := 2) (pays_hci _) (fun _ => ?_) (by omega)
      refine Pays.bind' (b := 0) pays_sendChallenge (fun ok => ?_) (by omega)
      refine Pays.bind' (b := 0) pays_receiveChallenge (fun _ => ?_) (by omega)
      exact pays_key _ _ _ _

theorem pays_sspInitiate (f : Feats) : Pays (sspInitiate f) 152 := by
  unfold sspInitiate
  refine Pays.bind' (b := 152) (pays_hci _) (fun _ => ?_) (by omega)
  refine Pays.bind' (b := 152) (pays_recvHci _) (fun c => ?_) (by omega)
  split
  · refine Pays.bind' (b := 152) (pays_hci _) (fun _ => ?_) (by omega)
    refine Pays.bind' (b := 76) (pays_lmp _) (fun _ => ?_) (by simp [worth])
    refine Pays.bind' (b := 76) (pays_recvLmp _) (fun l => ?_) (by omega)
    split
    · refine Pays.bind' (b := 76) (pays_hci _) (fun _ => ?_) (by omega)
      exact Pays.bind' (b := 74) (pays_supported _ _ _) (fun _ => pays_initiateRest _ _) (by omega)
    · trivial
  · refine Pays.bind' (b := 0) (pays_hci _) (fun _ => ?_) (by omega)
    exact Pays.bind' (b := 0) (pays_hci _) (fun _ => trivial) (by omega)

theorem pays_respondRest (p : Plan) : Pays (respondRest p) 74 := by
  unfold respondRest
  refine Pays.bind' (b := 69) pays_receivePublicKey (fun c => ?_) (by omega)
  refine Pays.bind' (b := 64) (pays_sendPublicKey _) (fun _ => ?_) (by omega)
  refine Pays.bind' (b := 4) (pays_stage1R _) (fun r => ?_) (by omega)
  cases r with
  | err => exact Pays.bind' (b := 0) (pays_hci _) (fun _ => trivial) (by omega)
  | ok negative =>
    refine Pays.bind' (b := 4) (pays_recvLmp _) (fun l => ?_) (by omega)
    split
    · exact Pays.bind' (b := 0) (pays_hci _) (fun _ => trivial) (by omega)
    · split
      · refine Pays.bind' (b := 0) (pays_lmp _) (fun _ => ?_) (by decide)
        exact Pays.bind' (b := 0) (pays_hci _) (fun _ => trivial) (by omega)
      · refine Pays.bind' (b := 3) (pays_lmp _) (fun _ => ?_) (by decide)
        refine Pays.bind' (b := 2) (pays_sendAccepted _ _) (fun _ => ?_) (by decide)
        refine Pays.bind' (b := 2) (pays_hci _) (fun _ => ?_) (by omega)
        refine Pays.bind' (b := 2) pays_receiveChallenge (fun _ => ?_) (by omega)
        refine Pays.bind' (b := 0) pays_sendChallenge (fun ok => ?_) (by omega)
        exact pays_key _ _ _ _

theorem pays_sspRespond (i : Option Params) : Pays (sspRespond i) 75 := by
  unfold sspRespond
  split
  · trivial
  · refine Pays.bind' (b := 75) (pays_hci _) (fun _ => ?_) (by omega)
    refine Pays.bind' (b := 75) (pays_hci _) (fun _ => ?_) (by omega)
    refine Pays.bind' (b := 75) (pays_recvHci _) (fun c => ?_) (by omega)
    split
    · refine Pays.bind' (b := 75) (pays_hci _) (fun _ => ?_) (by omega)
      exact Pays.bind' (b := 74) (pays_lmp _) (fun _ => pays_respondRest _) (by simp [worth])
    · refine Pays.bind' (b := 75) (pays_hci _) (fun _ => ?_) (by omega)
      refine Pays.bind' (b := 0) (pays_lmp _) (fun _ => ?_) (by decide)
      exact Pays.bind' (b := 0) (pays_hci _) (fun _ => trivial) (by omega)

/-- A procedure that begins with a command or a packet is paid by it. -/
theorem pays_first {α : Type} {acc : Kind → Bool} {f : Cmd → Prog α} (h : ∀ c, acc c.kind = true → Pays (f c) (worthCmd c.kind)) :
    Pays (recvHci acc >>= f) 0 := fun c hc => (h c hc).mono (by omega)
theorem pays_firstLmp {α : Type} {acc : Lmp → Bool} {f : Lmp → Prog α} (h : ∀ l, acc l = true → Pays (f l) (worth l)) :
    Pays (recvLmp acc >>= f) 0 := fun l hl => (h l hl).mono (by omega)

theorem pays_authInitiate (f : Feats) : Pays (authInitiate f) 0 := by
  unfold authInitiate
  refine pays_first fun c hc => ?_
  have : worthCmd c.kind = 154 := by rw [of_decide_eq_true hc]; rfl
  rw [this]
  refine Pays.bind' (b := 154) (pays_hci _) (fun _ => ?_) (by omega)
  refine Pays.bind' (b := 154) (pays_hci _) (fun _ => ?_) (by omega)
  refine Pays.bind' (b := 154) (pays_recvReply _ _) (fun ok => ?_) (by omega)
  cases ok
  · refine Pays.bind' (b := 152) (pays_supported _ _ _) (fun s => ?_) (by omega)
    cases s
    · exact Pays.bind' (b := 0) pays_legacyInitiate (fun _ => pays_hci _) (by omega)
    · exact Pays.bind' (b := 0) (pays_sspInitiate _) (fun _ => pays_hci _) (by omega)
  · refine Pays.bind' (b := 0) pays_sendChallenge (fun ok => ?_) (by omega)
    cases ok <;> exact pays_hci _

theorem pays_authRespond : Pays authRespond 0 := by
  unfold authRespond
  refine pays_firstLmp fun l hl => ?_
  cases l <;> simp only [isAuthentication, Bool.false_eq_true] at hl
  · exact Pays.bind' (b := 0) pays_legacyRespond (fun _ => trivial) (by decide)
  · refine Pays.bind' (b := 1) (pays_hci _) (fun _ => ?_) (by decide)
    refine Pays.bind' (b := 1) (pays_recvReply _ _) (fun ok => ?_) (by decide)
    cases ok
    · exact pays_lmp _
    · exact pays_lmp _
  · exact Pays.bind' (b := 0) (pays_sspRespond _) (fun _ => trivial) (by simp [worth])

theorem pays_aes (f : Feats) : Pays (aesCcm f) 4 := by
  unfold aesCcm
  refine Pays.bind' (b := 2) (pays_supported _ _ _) (fun ok => ?_) (by omega)
  cases ok
  · trivial
  · exact pays_supported _ _ _

theorem pays_encInitiate (f : Feats) : Pays (encInitiate f) 0 := by
  unfold encInitiate
  refine pays_first fun c hc => ?_
  have : worthCmd c.kind = 14 := by rw [of_decide_eq_true hc]; rfl
  rw [this]
  refine Pays.bind' (b := 14) (pays_hci _) (fun _ => ?_) (by omega)
  refine Pays.bind' (b := 6) (pays_sendAccepted _ _) (fun _ => ?_) (by decide)
  refine Pays.bind' (b := 5) (pays_sendAccepted _ _) (fun _ => ?_) (by decide)
  refine Pays.bind' (b := 4) (pays_sendAccepted _ _) (fun _ => ?_) (by decide)
  exact Pays.bind' (b := 0) (pays_aes _) (fun _ => pays_hci _) (by omega)

theorem pays_encRespond (f : Feats) : Pays (encRespond f) 0 := by
  unfold encRespond
  refine pays_firstLmp fun l hl => ?_
  cases l <;> simp only [isModeReq, Bool.false_eq_true] at hl
  refine Pays.bind' (b := 6) (pays_lmp _) (fun _ => ?_) (by decide)
  refine Pays.bind' (b := 6) (pays_recvLmp _) (fun _ => ?_) (by decide)
  refine Pays.bind' (b := 5) (pays_lmp _) (fun _ => ?_) (by decide)
  refine Pays.bind' (b := 5) (pays_recvLmp _) (fun _ => ?_) (by decide)
  refine Pays.bind' (b := 4) (pays_lmp _) (fun _ => ?_) (by decide)
  exact Pays.bind' (b := 0) (pays_aes _) (fun _ => pays_hci _) (by omega)

/-! ### Sums -/

/-- A list whose elements need these amounts in sum. -/
inductive Total {α : Type} (R : α → Nat → Prop) : List α → Nat → Prop where
  | nil : Total R [] 0
  | cons {x : α} {xs : List α} {a b : Nat} : R x a → Total R xs b → Total R (x :: xs) (a + b)

theorem Total.set {α : Type} {R : α → Nat → Prop} {l : List α} {n : Nat} (h : Total R l n) : ∀ {i : Nat} {x : α}, l[i]? = some x →
    ∃ a b, R x a ∧ n = a + b ∧ ∀ y c, R y c → Total R (l.set i y) (c + b) := by
  induction h with
  | nil => intro i x e; simp at e
  | @cons z zs a b hz ht ih =>
    intro i x e
    cases i with
    | zero =>
      simp only [List.getElem?_cons_zero, Option.some.injEq] at e
      subst e
      exact ⟨a, b, hz, rfl, fun y c hy => .cons hy ht⟩
    | succ i =>
      simp only [List.getElem?_cons_succ] at e
      obtain ⟨a', b', h1, h2, h3⟩ := ih e
      refine ⟨a', a + b', h1, by omega, fun y c hy => ?_⟩
      have := Total.cons hz (h3 y c hy)
      rw [show c + (a + b') = a + (c + b') by omega]
      exact this

/-- What a list of packets brings, and what a list of outputs costs. -/
def worths (q : List Lmp) : Nat := (q.map worth).sum
def costs (o : List Out) : Nat := (o.map fun | .lmp l => worth l + 1 | .hci _ => 0).sum
def worthSlot : Option Cmd → Nat
  | some c => worthCmd c.kind
  | none => 0

theorem costs_append (a b : List Out) : costs (a ++ b) = costs a + costs b := by simp [costs, List.sum_append]
theorem worths_cons (l : Lmp) (q : List Lmp) : worths (l :: q) = worth l + worths q := by simp [worths]

theorem flush_pays {p : Prog Unit} {n : Nat} (h : Pays p n) : ∃ m, m + costs (flush p).1 ≤ n ∧ ∀ q, (flush p).2 = .await q → Pays q m := by
  induction p generalizing n with
  | ret _ => exact ⟨n, by simp [flush, costs], fun q e => by simp [flush] at e⟩
  | send o k ih =>
    cases o with
    | hci e =>
      obtain ⟨m, h1, h2⟩ := ih h
      exact ⟨m, by simpa [flush, costs] using h1, h2⟩
    | lmp l =>
      obtain ⟨m, h1, h2⟩ := ih h.2
      refine ⟨m, ?_, h2⟩
      have := h.1
      simp only [flush, costs, List.map_cons, List.sum_cons] at h1 ⊢
      omega
  | panic => exact ⟨n, by simp [flush, costs], fun q e => by simp [flush] at e⟩
  | _ => exact ⟨n, by simp [flush, costs], fun q e => by simp only [flush, Stop.await.injEq] at e; subst e; exact h⟩

theorem offer_pays {p : Prog Unit} {slot : Option Cmd} {queue : List Lmp} {t : Take} {n : Nat} (h : Pays p n) (e : offer p slot queue = some t) :
    ∃ m, Pays t.next m ∧ m + worthSlot t.slot + worths t.queue ≤ n + worthSlot slot + worths queue ∧
      (t.yield = true → t.slot = slot ∧ worths t.queue ≤ worths queue) := by
  unfold offer at e
  split at e
  · -- recvHci
    rename_i acc k
    split at e
    · split at e
      · rename_i c hc
        cases e
        exact ⟨n + worthCmd c.kind, h c hc, by simp only [worthSlot]; omega, fun hy => by cases hy⟩
      · cases e
    · cases e
  · rename_i acc k
    split at e
    · split at e
      · rename_i l q hl
        cases e
        exact ⟨n + worth l, h l hl, by simp only [worths_cons]; omega, fun hy => by cases hy⟩
      · cases e
    · cases e
  · rename_i op k
    split at e
    · rename_i o q
      split at e
      · cases e; exact ⟨n, h true, by simp only [worths_cons]; omega, fun hy => by cases hy⟩
      · split at e
        · split at e
          · cases e; exact ⟨n, h false, by simp only [worths_cons]; omega, fun hy => by cases hy⟩
          · cases e; exact ⟨n, h, by simp only [worths_cons]; omega, fun _ => ⟨rfl, by simp only [worths_cons]; omega⟩⟩
        · cases e; exact ⟨n, h, by simp only [worths_cons]; omega, fun _ => ⟨rfl, by simp only [worths_cons]; omega⟩⟩
    · split at e
      · cases e; exact ⟨n, h false, by simp only [worths_cons]; omega, fun hy => by cases hy⟩
      · cases e; exact ⟨n, h, by simp only [worths_cons]; omega, fun _ => ⟨rfl, by simp only [worths_cons]; omega⟩⟩
    · cases e
  · rename_i k
    split at e
    · split at e
      · cases e; exact ⟨n, h true, by simp only [worthSlot]; omega, fun hy => by cases hy⟩
      split at e
      · cases e; exact ⟨n, h false, by simp only [worthSlot]; omega, fun hy => by cases hy⟩
      split at e
      · cases e; exact ⟨n, h, by simp only [worthSlot]; omega, fun hy => by cases hy⟩
      · cases e
    · cases e
  · cases e

/-- A procedure that can pay; it can start again for nothing. -/
def ProcPays (p : Proc) (n : Nat) : Prop := Pays p.top 0 ∧ Pays p.cur n

/-- All that a link has and will have spent. -/
def _root_.Verif.Lmp.Local.has (s : Local) : Nat := worthSlot s.slot + worths s.queue + costs s.outs

theorem pollProc_pays : ∀ {k : Nat} {p p' : Proc} {s s' : Local} {n : Nat}, ProcPays p n → pollProc k p s = some (p', s') →
    ∃ m, ProcPays p' m ∧ m + s'.has ≤ n + s.has
  | 0, p, p', s, s', n, h, e => by
    cases e
    exact ⟨n, h, Nat.le_refl _⟩
  | k + 1, p, p', s, s', n, h, e => by
    rw [pollProc] at e
    split at e
    · cases e; exact ⟨n, h, Nat.le_refl _⟩
    · rename_i t ht
      obtain ⟨m, h1, h2, h3⟩ := offer_pays h.2 ht
      split at e
      · rename_i hy
        obtain ⟨h4, h5⟩ := h3 hy
        cases e
        exact ⟨n, h, by simp only [Local.has]; omega⟩
      · obtain ⟨m', g1, g2⟩ := flush_pays h1
        split at e
        · rename_i o q hf
          simp only [hf] at g1 g2
          obtain ⟨r, r1, r2⟩ := pollProc_pays (n := m') (p := { p with cur := q, busy := true }) ⟨h.1, g2 q rfl⟩ e
          refine ⟨r, r1, ?_⟩
          simp only [Local.has, costs_append] at r2 ⊢
          omega
        · rename_i o hf
          simp only [hf] at g1
          obtain ⟨r, r1, r2⟩ := pollProc_pays (n := 0) (p := { p with cur := p.top, busy := false }) ⟨h.1, h.1⟩ e
          refine ⟨r, r1, ?_⟩
          simp only [Local.has, costs_append] at r2 ⊢
          omega
        · cases e

theorem pollAll_pays : ∀ {ps ps' : List Proc} {s s' : Local} {n : Nat}, Total ProcPays ps n → pollAll ps s = some (ps', s') →
    ∃ m, Total ProcPays ps' m ∧ m + s'.has ≤ n + s.has
  | [], ps', s, s', n, h, e => by cases e; exact ⟨n, h, Nat.le_refl _⟩
  | p :: ps, ps', s, s', n, h, e => by
    rw [pollAll] at e
    cases h with
    | @cons _ _ a b hp ht =>
      split at e
      · cases e
      · rename_i p1 s1 e1
        obtain ⟨m1, g1, g2⟩ := pollProc_pays hp e1
        split at e
        · cases e
        · rename_i ps1 s2 e2
          cases e
          obtain ⟨m2, g3, g4⟩ := pollAll_pays ht e2
          exact ⟨m1 + m2, .cons g1 g3, by omega⟩

/-- What a link has: the command, the packets, and what its procedures have. -/
def LinkPays (l : Link) (n : Nat) : Prop := ∃ m, n = worthSlot l.slot + worths l.queue + m ∧ ∀ ps, l.procs = some ps → Total ProcPays ps m

theorem link_tick {l l' : Link} {o : List Out} {n : Nat} (h : LinkPays l n) (e : l.tick = some (l', o)) :
    ∃ m, LinkPays l' m ∧ m + costs o ≤ n := by
  unfold Link.tick at e
  split at e
  · cases e; exact ⟨n, h, by simp [costs]⟩
  · rename_i ps hp
    obtain ⟨m, rfl, hm⟩ := h
    split at e
    · cases e
    · rename_i ps' s hs
      cases e
      obtain ⟨m', g1, g2⟩ := pollAll_pays (hm ps hp) hs
      refine ⟨_, ⟨m', rfl, fun _ e => by cases e; exact g1⟩, ?_⟩
      simp only [Local.has, costs, List.map_nil, List.sum_nil] at g2 ⊢
      omega

/-- What the packets that are sent cost. -/
def costsM (o : List MOut) : Nat := (o.map fun | .lmp _ l => worth l + 1 | .hci .. => 0).sum

theorem costsM_append (a b : List MOut) : costsM (a ++ b) = costsM a + costsM b := by simp [costsM, List.sum_append]
theorem costsM_of (a : Nat) (o : List Out) : costsM (o.map (MOut.of a)) = costs o := by
  unfold costsM costs
  rw [List.map_map]
  congr 1
  refine List.map_congr_left fun x _ => ?_
  cases x <;> rfl

theorem tickLinks_pays : ∀ {ls ls' : List Link} {o : List MOut} {n : Nat}, Total LinkPays ls n → tickLinks ls = some (ls', o) →
    ∃ m, Total LinkPays ls' m ∧ m + costsM o ≤ n
  | [], ls', o, n, h, e => by cases e; exact ⟨n, h, by simp [costsM]⟩
  | l :: ls, ls', o, n, h, e => by
    rw [tickLinks] at e
    cases h with
    | @cons _ _ a b hl ht =>
      split at e
      · cases e
      · rename_i l1 o1 e1
        obtain ⟨m1, g1, g2⟩ := link_tick hl e1
        split at e
        · cases e
        · rename_i ls1 o2 e2
          cases e
          obtain ⟨m2, g3, g4⟩ := tickLinks_pays ht e2
          refine ⟨m1 + m2, .cons g1 g3, ?_⟩
          rw [costsM_append, costsM_of]
          omega

def MgrPays (m : Mgr) (n : Nat) : Prop := Total LinkPays m.links n

/-- What comes with a call. -/
def worthOp : Op → Nat
  | .hci (some c) => worthCmd c.kind
  | .lmp _ (some p) => worth p
  | _ => 0

theorem procedures_pay (f : Feats) : Total ProcPays (procedures f) 0 := by
  have h {p : Prog Unit} (hp : Pays p 0) : ProcPays (.start p) 0 := ⟨hp, hp⟩
  exact .cons (a := 0) (b := 0) (h (pays_authInitiate f)) (.cons (a := 0) (b := 0) (h pays_authRespond) (.cons (a := 0) (b := 0) (h (pays_encInitiate f))
    (.cons (a := 0) (b := 0) (h (pays_encRespond f)) (.cons (a := 0) (b := 0) (h (pays_features f)) .nil))))

theorem complete_costs {c : Cmd} {s : Status} {o : List MOut} (h : complete c s = some o) : costsM o = 0 := by
  unfold complete at h
  split at h
  · cases h; rfl
  · cases h

theorem worths_append (a b : List Lmp) : worths (a ++ b) = worths a + worths b := by simp [worths, List.sum_append]

theorem unused_pays : LinkPays .unused 0 := ⟨0, rfl, fun _ e => by cases e⟩

theorem step_pays {m m' : Mgr} {op : Op} {o : List MOut} {n : Nat} (h : MgrPays m n) (e : step m op = .ok m' o) :
    ∃ k, MgrPays m' k ∧ k + costsM o ≤ n + worthOp op := by
  cases op with
  | hci c =>
    cases c with
    | none => cases e
    | some c =>
      simp only [step, ingestHci] at e
      split at e
      · split at e
        · rename_i l hl
          split at e
          · cases e
          · rename_i hs
            cases e
            obtain ⟨a, b, ⟨x, rfl, hx⟩, rfl, g⟩ := Total.set h hl
            refine ⟨_, g _ _ ⟨x, rfl, hx⟩, ?_⟩
            simp only [worthOp, worthSlot, costsM, List.map_nil, List.sum_nil]
            omega
        · cases e
      · split at e
        · rename_i ho
          cases e
          exact ⟨n, h, by rw [complete_costs ho]; omega⟩
        · cases e
  | lmp a p =>
    cases p with
    | none => cases e
    | some p =>
      simp only [step, ingestLmp] at e
      split at e
      · split at e
        · rename_i l hl
          cases e
          obtain ⟨a, b, ⟨x, rfl, hx⟩, rfl, g⟩ := Total.set h hl
          refine ⟨_, g _ _ ⟨x, rfl, hx⟩, ?_⟩
          simp only [worthOp, worths_append, worths_cons, costsM, List.map_nil, List.sum_nil]
          simp only [worths, List.map_nil, List.sum_nil]
          omega
        · cases e
      · cases e
        exact ⟨n, h, by simp [costsM]⟩
  | add a =>
    simp only [step, addLink] at e
    split at e
    · split at e
      · rename_i l hl
        cases e
        obtain ⟨a, b, ⟨x, rfl, hx⟩, rfl, g⟩ := Total.set h hl
        refine ⟨_, g _ _ ⟨0, rfl, fun _ e => by cases e; exact procedures_pay _⟩, ?_⟩
        simp only [worthOp, costsM, List.map_nil, List.sum_nil]
        omega
      · cases e
    · cases e
  | remove a =>
    simp only [step, removeLink] at e
    split at e
    · split at e
      · rename_i l hl
        obtain ⟨a, b, -, rfl, g⟩ := Total.set h hl
        split at e
        · split at e
          · rename_i ho
            cases e
            exact ⟨_, g _ _ unused_pays, by rw [complete_costs ho]; omega⟩
          · cases e
        · cases e
          exact ⟨_, g _ _ unused_pays, by simp only [costsM, List.map_nil, List.sum_nil]; omega⟩
      · cases e
    · cases e
  | tick =>
    simp only [step, tick] at e
    split at e
    · cases e
    · rename_i ls o' hl
      cases e
      obtain ⟨k, g1, g2⟩ := tickLinks_pays h hl
      exact ⟨k, g1, by omega⟩

/-! ### All devices -/

/-- What the packets on their way bring. -/
def airWorth (l : List (Nat × Nat × Lmp)) : Nat := (l.map fun e => worth e.2.2).sum

theorem airWorth_append (a b : List (Nat × Nat × Lmp)) : airWorth (a ++ b) = airWorth a + airWorth b := by simp [airWorth, List.sum_append]

theorem said_costs (i : Nat) (o : List MOut) : airWorth (said i o) + (said i o).length = costsM o := by
  induction o with
  | nil => rfl
  | cons x o ih =>
    cases x with
    | hci a e => simpa [said, costsM] using ih
    | lmp to p =>
      simp only [said, List.filterMap_cons, airWorth, List.map_cons, List.sum_cons, List.length_cons, costsM] at ih ⊢
      omega

theorem airWorth_erase : ∀ (l : List (Nat × Nat × Lmp)) (k : Nat), airWorth (l.eraseIdx k) ≤ airWorth l
  | [], _ => by simp
  | x :: l, 0 => by simp [airWorth]
  | x :: l, k + 1 => by
    have := airWorth_erase l k
    simp only [airWorth, List.eraseIdx_cons_succ, List.map_cons, List.sum_cons] at this ⊢
    omega

theorem airWorth_take : ∀ {l : List (Nat × Nat × Lmp)} {k : Nat} {e : Nat × Nat × Lmp}, l[k]? = some e →
    airWorth (l.eraseIdx k) + worth e.2.2 = airWorth l
  | [], _, _, h => by simp at h
  | x :: l, 0, e, h => by
    simp only [List.getElem?_cons_zero, Option.some.injEq] at h
    subst h
    simp only [airWorth, List.eraseIdx_cons_zero, List.map_cons, List.sum_cons]
    omega
  | x :: l, k + 1, e, h => by
    simp only [List.getElem?_cons_succ] at h
    have := airWorth_take h
    simp only [airWorth, List.eraseIdx_cons_succ, List.map_cons, List.sum_cons] at this ⊢
    omega

/-- What all have. -/
def TalkPays (n : Talk) (x : Nat) : Prop := ∃ y, Total MgrPays n.mgrs y ∧ y + airWorth n.air = x

theorem talkAt_pays {n n' : Talk} {i : Nat} {op : Op} {o : List (Nat × Nat × Lmp)} {x : Nat} (h : TalkPays n x) (e : talkAt n i op = some (n', o)) :
    ∃ y, TalkPays n' y ∧ y + o.length ≤ x + worthOp op := by
  unfold talkAt at e
  split at e
  · cases e
  · rename_i m hm
    split at e
    · rename_i m' o' hs
      cases e
      obtain ⟨z, hz, rfl⟩ := h
      obtain ⟨a, b, h1, rfl, g⟩ := Total.set hz hm
      obtain ⟨k, g1, g2⟩ := step_pays h1 hs
      refine ⟨_, ⟨_, g _ _ g1, rfl⟩, ?_⟩
      have := said_costs i o'
      simp only [airWorth_append]
      omega
    · cases e

/-- What an action brings. -/
def worthAct (x : TalkAct) : Nat := (if x.authenticates then 154 else 0) + if x.encrypts then 14 else 0

theorem worthAct_host (i : Nat) (c : Cmd) : worthOp (.hci (some c)) ≤ worthAct (.host i c) := by
  obtain ⟨k, a, p⟩ := c
  simp only [worthAct, worthOp, TalkAct.authenticates, TalkAct.encrypts]
  cases k <;> simp [worthCmd]

theorem talkStep_pays {n n' : Talk} {a : TalkAct} {o : List (Nat × Nat × Lmp)} {x : Nat} (h : TalkPays n x) (e : talkStep n a = some (n', o)) :
    ∃ y, TalkPays n' y ∧ y + o.length ≤ x + worthAct a := by
  cases a with
  | host i c =>
    obtain ⟨y, h1, h2⟩ := talkAt_pays h e
    exact ⟨y, h1, Nat.le_trans h2 (Nat.add_le_add_left (worthAct_host i c) _)⟩
  | add i a =>
    obtain ⟨y, h1, h2⟩ := talkAt_pays h e
    exact ⟨y, h1, by simp only [worthOp] at h2; omega⟩
  | remove i a =>
    obtain ⟨y, h1, h2⟩ := talkAt_pays h e
    exact ⟨y, h1, by simp only [worthOp] at h2; omega⟩
  | tick i =>
    obtain ⟨y, h1, h2⟩ := talkAt_pays h e
    exact ⟨y, h1, by simp only [worthOp] at h2; omega⟩
  | deliver k =>
    simp only [talkStep] at e
    split at e
    · rename_i source to p hk
      have ha := airWorth_take hk
      obtain ⟨z, hz, rfl⟩ := h
      obtain ⟨y, h1, h2⟩ := talkAt_pays (n := { n with air := n.air.eraseIdx k }) ⟨z, hz, rfl⟩ e
      refine ⟨y, h1, ?_⟩
      simp only [worthOp] at h2
      simp only at ha
      omega
    · cases e
  | lose k =>
    cases e
    obtain ⟨z, hz, rfl⟩ := h
    have := airWorth_erase n.air k
    exact ⟨_, ⟨z, hz, rfl⟩, by simp only [List.length_nil]; omega⟩

theorem runTalk_pays : ∀ {xs : List TalkAct} {n n' : Talk} {o : List (Nat × Nat × Lmp)} {x : Nat}, TalkPays n x → runTalk xs n = some (n', o) →
    ∃ y, TalkPays n' y ∧ y + o.length ≤ x + (xs.map worthAct).sum
  | [], n, n', o, x, h, e => by cases e; exact ⟨x, h, by simp⟩
  | a :: xs, n, n', o, x, h, e => by
    simp only [runTalk] at e
    obtain ⟨⟨m, o1⟩, h1, e⟩ := Option.bind_eq_some_iff.1 e
    obtain ⟨⟨k, o2⟩, h2, e⟩ := Option.bind_eq_some_iff.1 e
    cases e
    obtain ⟨y, g1, g2⟩ := talkStep_pays h h1
    obtain ⟨z, g3, g4⟩ := runTalk_pays g1 h2
    refine ⟨z, g3, ?_⟩
    simp only [List.length_append, List.map_cons, List.sum_cons]
    omega

theorem init_pays (f : Feats) : MgrPays (Mgr.init f) 0 := by
  have h : ∀ k, Total LinkPays (List.replicate k .unused) 0 := by
    intro k
    induction k with
    | zero => exact .nil
    | succ k ih => exact .cons (a := 0) (b := 0) unused_pays ih
  exact h _

theorem new_pays (fs : List Feats) : TalkPays (Talk.new fs) 0 := by
  refine ⟨0, ?_, rfl⟩
  unfold Talk.new
  simp only
  induction fs with
  | nil => exact .nil
  | cons f fs ih => exact .cons (a := 0) (b := 0) (init_pays f) ih

theorem worthAct_sum (xs : List TalkAct) : (xs.map worthAct).sum = 154 * xs.countP TalkAct.authenticates + 14 * xs.countP TalkAct.encrypts := by
  induction xs with
  | nil => rfl
  | cons x xs ih =>
    simp only [List.map_cons, List.sum_cons, ih, List.countP_cons, worthAct]
    split <;> split <;> omega

end Verif.Lmp.Say
