import Verif.Lmp.Air

/-! # Lemmas about conversations -/

namespace Verif.Lmp

theorem replay_bind {α β : Type} (f : α → Prog β) (b : β) : ∀ (p : Prog α) (t : List Heard),
    replay (p.bind f) t = some b ↔ ∃ t1 t2 a, t = t1 ++ t2 ∧ replay p t1 = some a ∧ replay (f a) t2 = some b := by
  have nilNone : ∀ (p : Prog α), (∀ a, p ≠ .ret a) → ∀ a, replay p [] ≠ some a := by
    intro p hp a h
    cases p <;> simp [replay] at h
    exact hp _ rfl
  intro p
  induction p with
  | ret a =>
    intro t
    constructor
    · intro h; exact ⟨[], t, a, rfl, rfl, h⟩
    · rintro ⟨t1, t2, a', rfl, h1, h2⟩
      cases t1 with
      | nil => simp only [replay, Option.some.injEq] at h1; subst h1; exact h2
      | cons x t1 => simp [replay] at h1
  | send o k ih =>
    intro t
    constructor
    · intro h
      cases t with
      | nil => simp [Prog.bind, replay] at h
      | cons x t =>
        cases x <;> simp only [Prog.bind, replay, reduceCtorEq] at h
        split at h
        · obtain ⟨t1, t2, a, rfl, h1, h2⟩ := (ih t).1 h
          rename_i o' he
          exact ⟨.out o' :: t1, t2, a, rfl, by simp [replay, he, h1], h2⟩
        · cases h
    · rintro ⟨t1, t2, a, rfl, h1, h2⟩
      cases t1 with
      | nil => exact absurd h1 (nilNone _ (by simp) _)
      | cons x t1 =>
        cases x <;> simp only [replay, reduceCtorEq] at h1
        split at h1
        · rename_i he
          simp only [List.cons_append, Prog.bind, replay, he, if_true]
          exact (ih _).2 ⟨t1, t2, a, rfl, h1, h2⟩
        · cases h1
  | recvHci acc k ih =>
    intro t
    constructor
    · intro h
      cases t with
      | nil => simp [Prog.bind, replay] at h
      | cons x t =>
        cases x <;> simp only [Prog.bind, replay, reduceCtorEq] at h
        split at h
        · rename_i c he
          obtain ⟨t1, t2, a, rfl, h1, h2⟩ := (ih c t).1 h
          exact ⟨.cmd c :: t1, t2, a, rfl, by simp [replay, he, h1], h2⟩
        · cases h
    · rintro ⟨t1, t2, a, rfl, h1, h2⟩
      cases t1 with
      | nil => exact absurd h1 (nilNone _ (by simp) _)
      | cons x t1 =>
        cases x <;> simp only [replay, reduceCtorEq] at h1
        split at h1
        · rename_i he
          simp only [List.cons_append, Prog.bind, replay, he, if_true]
          exact (ih _ _).2 ⟨t1, t2, a, rfl, h1, h2⟩
        · cases h1
  | recvLmp acc k ih =>
    intro t
    constructor
    · intro h
      cases t with
      | nil => simp [Prog.bind, replay] at h
      | cons x t =>
        cases x <;> simp only [Prog.bind, replay, reduceCtorEq] at h
        split at h
        · rename_i c he
          obtain ⟨t1, t2, a, rfl, h1, h2⟩ := (ih c t).1 h
          exact ⟨.pkt c :: t1, t2, a, rfl, by simp [replay, he, h1], h2⟩
        · cases h
    · rintro ⟨t1, t2, a, rfl, h1, h2⟩
      cases t1 with
      | nil => exact absurd h1 (nilNone _ (by simp) _)
      | cons x t1 =>
        cases x <;> simp only [replay, reduceCtorEq] at h1
        split at h1
        · rename_i he
          simp only [List.cons_append, Prog.bind, replay, he, if_true]
          exact (ih _ _).2 ⟨t1, t2, a, rfl, h1, h2⟩
        · cases h1
  | wait op k ih =>
    intro t
    constructor
    · intro h
      cases t with
      | nil => simp [Prog.bind, replay] at h
      | cons x t =>
        cases x <;> simp only [Prog.bind, replay, reduceCtorEq] at h
        split at h
        · rename_i op' ok he
          obtain ⟨t1, t2, a, rfl, h1, h2⟩ := (ih ok t).1 h
          exact ⟨.verdict op' ok :: t1, t2, a, rfl, by simp [replay, he, h1], h2⟩
        · cases h
    · rintro ⟨t1, t2, a, rfl, h1, h2⟩
      cases t1 with
      | nil => exact absurd h1 (nilNone _ (by simp) _)
      | cons x t1 =>
        cases x <;> simp only [replay, reduceCtorEq] at h1
        split at h1
        · rename_i he
          simp only [List.cons_append, Prog.bind, replay, he, if_true]
          exact (ih _ _).2 ⟨t1, t2, a, rfl, h1, h2⟩
        · cases h1
  | passkey k ih =>
    intro t
    constructor
    · intro h
      cases t with
      | nil => simp [Prog.bind, replay] at h
      | cons x t =>
        cases x <;> simp only [Prog.bind, replay, reduceCtorEq] at h
        rename_i ok
        obtain ⟨t1, t2, a, rfl, h1, h2⟩ := (ih ok t).1 h
        exact ⟨.typed ok :: t1, t2, a, rfl, by simp [replay, h1], h2⟩
    · rintro ⟨t1, t2, a, rfl, h1, h2⟩
      cases t1 with
      | nil => exact absurd h1 (nilNone _ (by simp) _)
      | cons x t1 =>
        cases x <;> simp only [replay, reduceCtorEq] at h1
        simp only [List.cons_append, Prog.bind, replay]
        exact (ih _ _).2 ⟨t1, t2, a, rfl, h1, h2⟩
  | panic =>
    intro t
    constructor
    · intro h; cases t <;> simp [Prog.bind, replay] at h
    · rintro ⟨t1, t2, a, rfl, h1, h2⟩
      cases t1 <;> simp [replay] at h1

/-- Bind, with the first part of the conversation known to be one of a kind. -/
theorem replay_seq {α β : Type} {p : Prog α} {f : α → Prog β} {b : β} {t : List Heard} :
    replay (p >>= f) t = some b ↔ ∃ a t1, replay p t1 = some a ∧ ∃ t2, replay (f a) t2 = some b ∧ t = t1 ++ t2 := by
  rw [show (p >>= f) = p.bind f from rfl, replay_bind]
  constructor
  · rintro ⟨t1, t2, a, h1, h2, h3⟩; exact ⟨a, t1, h2, t2, h3, h1⟩
  · rintro ⟨a, t1, h2, t2, h3, h1⟩; exact ⟨t1, t2, a, h1, h2, h3⟩

theorem replay_ret {α : Type} {a b : α} {t : List Heard} : replay (.ret a) t = some b ↔ a = b ∧ t = [] := by
  cases t <;> simp [replay]

theorem replay_pure {α : Type} {a b : α} {t : List Heard} : replay (pure a) t = some b ↔ a = b ∧ t = [] := replay_ret

theorem replay_panic {α : Type} {b : α} {t : List Heard} : replay .panic t = some b ↔ False := by
  cases t <;> simp [replay]

theorem replay_send {α : Type} {o : Out} {k : Prog α} {b : α} {t : List Heard} :
    replay (.send o k) t = some b ↔ ∃ t', replay k t' = some b ∧ t = .out o :: t' := by
  cases t with
  | nil => simp [replay]
  | cons x t =>
    cases x <;> simp [replay]
    rename_i o'
    constructor
    · rintro ⟨rfl, h⟩; exact ⟨h, rfl⟩
    · rintro ⟨h1, rfl⟩; simp [h1]

theorem replay_lmp {l : Lmp} {b : Unit} {t : List Heard} : replay (lmp l) t = some b ↔ t = [.out (.lmp l)] := by
  simp [lmp, replay_send, replay_ret]

theorem replay_hci {e : Ev} {b : Unit} {t : List Heard} : replay (hci e) t = some b ↔ t = [.out (.hci e)] := by
  simp [hci, replay_send, replay_ret]

theorem replay_recvLmp {acc : Lmp → Bool} {l : Lmp} {t : List Heard} :
    replay (recvLmp acc) t = some l ↔ acc l = true ∧ t = [.pkt l] := by
  cases t with
  | nil => simp [recvLmp, replay]
  | cons x t =>
    cases x <;> simp [recvLmp, replay]
    rename_i l'
    constructor
    · rintro ⟨h1, h⟩
      obtain ⟨rfl, rfl⟩ := replay_ret.1 h
      simp [h1]
    · rintro ⟨h1, rfl, rfl⟩; simp [h1, replay]

theorem replay_recvHci {acc : Kind → Bool} {c : Cmd} {t : List Heard} :
    replay (recvHci acc) t = some c ↔ acc c.kind = true ∧ t = [.cmd c] := by
  cases t with
  | nil => simp [recvHci, replay]
  | cons x t =>
    cases x <;> simp [recvHci, replay]
    constructor
    · rintro ⟨h1, h⟩
      obtain ⟨rfl, rfl⟩ := replay_ret.1 h
      simp [h1]
    · rintro ⟨h1, rfl, rfl⟩; simp [h1, replay]

theorem replay_wait {op : Opcode} {ok : Bool} {t : List Heard} :
    replay (.wait op .ret) t = some ok ↔ t = [.verdict op ok] := by
  cases t with
  | nil => simp [replay]
  | cons x t =>
    cases x <;> simp [replay]
    constructor
    · rintro ⟨h1, h⟩
      obtain ⟨rfl, rfl⟩ := replay_ret.1 h
      simp [h1]
    · rintro ⟨⟨rfl, rfl⟩, rfl⟩; simp [replay]

theorem replay_sendAccepted {l : Lmp} {op : Opcode} {ok : Bool} {t : List Heard} :
    replay (sendAccepted l op) t = some ok ↔ t = [.out (.lmp l), .verdict op ok] := by
  simp [sendAccepted, replay_send, replay_wait]

theorem replay_userPasskey {ok : Bool} {t : List Heard} :
    replay userPasskey t = some ok ↔ t = [.out (.hci .userPasskeyRequest), .typed ok] := by
  have : ∀ {t}, replay (.passkey .ret) t = some ok ↔ t = [.typed ok] := by
    intro t
    cases t with
    | nil => simp [replay]
    | cons x t =>
      cases x <;> simp [replay]
      constructor
      · intro h; obtain ⟨rfl, rfl⟩ := replay_ret.1 h; simp
      · rintro ⟨rfl, rfl⟩; simp [replay]
  simp [userPasskey, replay_send, this]

theorem replay_recvReply {pos neg : Kind} {ok : Bool} {t : List Heard} :
    replay (recvReply pos neg) t = some ok ↔
      ∃ c : Cmd, (c.kind = pos ∨ c.kind = neg) ∧ ok = decide (c.kind = pos) ∧ t = [.cmd c, .out (.hci (.answer c.kind .success))] := by
  simp only [recvReply, replay_seq, replay_recvHci, replay_hci, replay_pure]
  constructor
  · rintro ⟨c, t1, ⟨h1, rfl⟩, t2, ⟨_, _, rfl, t3, ⟨h2, rfl⟩, rfl⟩, rfl⟩
    exact ⟨c, by simpa using h1, h2.symm, rfl⟩
  · rintro ⟨c, h1, h2, rfl⟩
    exact ⟨c, _, ⟨by simpa using h1, rfl⟩, _, ⟨(), _, rfl, _, ⟨h2.symm, rfl⟩, rfl⟩, rfl⟩

theorem air_append (t t' : List Heard) : air (t ++ t') = air t ++ air t' := List.filterMap_append ..
theorem host_append (t t' : List Heard) : host (t ++ t') = host t ++ host t' := List.filterMap_append ..

theorem times_succ (n : Nat) (l : List Air) : times (n + 1) l = l ++ times n l := by
  simp [times, List.replicate_succ]

/-- Repetition. -/
theorem replay_repeat {p : Prog Unit} {l : List Air} (hp : ∀ t, replay p t = some () → air t = l ∧ host t = []) :
    ∀ (n : Nat) {t : List Heard}, replay (repeatN n p) t = some () → air t = times n l ∧ host t = [] := by
  intro n
  induction n with
  | zero =>
    intro t h
    obtain ⟨-, rfl⟩ := replay_ret.1 h
    exact ⟨rfl, rfl⟩
  | succ n ih =>
    intro t h
    obtain ⟨_, t1, h1, t2, h2, rfl⟩ := replay_seq.1 (show replay (p >>= fun _ => repeatN n p) t = some () from h)
    obtain ⟨a1, b1⟩ := hp t1 h1
    obtain ⟨a2, b2⟩ := ih h2
    rw [air_append, host_append, a1, a2, b1, b2, times_succ]
    exact ⟨rfl, rfl⟩

theorem replay_sendPublicKey {c : Curve} {t : List Heard} (h : replay (sendPublicKey c) t = some ()) :
    air t = keySent c ∧ host t = [] := by
  obtain ⟨ok, t1, h1, t2, h2, rfl⟩ := replay_seq.1 h
  rw [replay_sendAccepted] at h1
  subst h1
  have := replay_repeat (l := [.tx .encapsulatedPayload, .answer .encapsulatedPayload]) (by
    intro t h
    obtain ⟨ok, t1, h1, t2, h2, rfl⟩ := replay_seq.1 h
    rw [replay_sendAccepted] at h1
    obtain ⟨-, rfl⟩ := replay_pure.1 h2
    subst h1
    exact ⟨rfl, rfl⟩) _ h2
  rw [air_append, host_append, this.1, this.2]
  cases c <;> exact ⟨rfl, rfl⟩

theorem isHeader_cases {l : Lmp} (h : isHeader l = true) : ∃ n, l = .encapsulatedHeader n := by
  cases l <;> simp [isHeader] at h ⊢
theorem isPayload_cases {l : Lmp} (h : isPayload l = true) : l = .encapsulatedPayload := by
  cases l <;> simp [isPayload] at h ⊢
theorem isConfirm_cases {l : Lmp} (h : isConfirm l = true) : ∃ z, l = .confirm z := by
  cases l <;> simp [isConfirm] at h ⊢
theorem isNumber_cases {l : Lmp} (h : isNumber l = true) : l = .number := by
  cases l <;> simp [isNumber] at h ⊢
theorem isDhkey_cases {l : Lmp} (h : isDhkey l = true) : l = .dhkeyCheck := by
  cases l <;> simp [isDhkey] at h ⊢
theorem isAuRand_cases {l : Lmp} (h : isAuRand l = true) : l = .auRand := by
  cases l <;> simp [isAuRand] at h ⊢
theorem isSres_cases {l : Lmp} (h : isSres l = true) : l = .sres := by
  cases l <;> simp [isSres] at h ⊢

theorem replay_receivePublicKey {c : Curve} {t : List Heard} (h : replay receivePublicKey t = some c) :
    air t = (keySent c).map Air.mirror ∧ host t = [] := by
  obtain ⟨l, t1, h1, t2, h2, rfl⟩ := replay_seq.1 h
  obtain ⟨ha, rfl⟩ := replay_recvLmp.1 h1
  obtain ⟨n, rfl⟩ := isHeader_cases ha
  simp only at h2
  split at h2
  · exact (replay_panic.1 h2).elim
  · rename_i c' hc
    obtain ⟨_, t3, h3, t4, h4, rfl⟩ := replay_seq.1 h2
    obtain ⟨_, t5, h5, t6, h6, rfl⟩ := replay_seq.1 h4
    obtain ⟨rfl, rfl⟩ := replay_pure.1 h6
    rw [replay_lmp] at h3
    subst h3
    have := replay_repeat (l := [.rx .encapsulatedPayload, .tx (.accepted .encapsulatedPayload)]) (by
      intro t h
      obtain ⟨l, t1, h1, t2, h2, rfl⟩ := replay_seq.1 h
      obtain ⟨ha, rfl⟩ := replay_recvLmp.1 h1
      obtain rfl := isPayload_cases ha
      rw [replay_lmp] at h2
      subst h2
      exact ⟨rfl, rfl⟩) _ h5
    simp only [air_append, host_append, this.1, this.2]
    simp only [curveOfSize] at hc
    split at hc
    · rename_i hn; subst hn; cases hc; exact ⟨rfl, rfl⟩
    · split at hc
      · rename_i hn; subst hn; cases hc; exact ⟨rfl, rfl⟩
      · cases hc

theorem replay_checkCommitment {l : Lmp} {t : List Heard} (h : replay (checkCommitment l) t = some ()) : l = .confirm true ∧ t = [] := by
  simp only [checkCommitment] at h
  split at h
  · obtain ⟨-, rfl⟩ := replay_ret.1 h; exact ⟨rfl, rfl⟩
  · exact (replay_panic.1 h).elim

theorem replay_sendCommitment {l : Lmp} {t : List Heard} (h : replay (sendCommitment l) t = some ()) :
    l = .confirm true ∧ air t = nonces ∧ host t = [] := by
  obtain ⟨_, t1, h1, t2, h2, rfl⟩ := replay_seq.1 h
  obtain ⟨rfl, rfl⟩ := replay_checkCommitment h1
  obtain ⟨ok, t3, h3, t4, h4, rfl⟩ := replay_seq.1 h2
  rw [replay_sendAccepted] at h3
  obtain ⟨l, t5, h5, t6, h6, rfl⟩ := replay_seq.1 h4
  obtain ⟨ha, rfl⟩ := replay_recvLmp.1 h5
  obtain rfl := isNumber_cases ha
  rw [replay_lmp] at h6
  subst h3 h6
  exact ⟨rfl, rfl, rfl⟩

theorem replay_receiveCommitment {t : List Heard} (h : replay receiveCommitment t = some ()) :
    air t = .tx (.confirm true) :: nonces.map Air.mirror ∧ host t = [] := by
  obtain ⟨_, t1, h1, t2, h2, rfl⟩ := replay_seq.1 h
  rw [replay_lmp] at h1
  obtain ⟨l, t5, h5, t6, h6, rfl⟩ := replay_seq.1 h2
  obtain ⟨ha, rfl⟩ := replay_recvLmp.1 h5
  obtain rfl := isNumber_cases ha
  obtain ⟨_, t7, h7, t8, h8, rfl⟩ := replay_seq.1 h6
  rw [replay_lmp] at h7
  obtain ⟨ok, t9, h9, t10, h10, rfl⟩ := replay_seq.1 h8
  rw [replay_sendAccepted] at h9
  obtain ⟨-, rfl⟩ := replay_pure.1 h10
  subst h1 h7 h9
  exact ⟨rfl, rfl⟩

theorem replay_userConfirmation {t : List Heard} (h : replay userConfirmation t = some true) :
    air t = [] ∧ host t = [.event .userConfirmationRequest, .command .confirmReply, .event (.answer .confirmReply .success)] := by
  obtain ⟨_, t1, h1, t2, h2, rfl⟩ := replay_seq.1 h
  rw [replay_hci] at h1
  obtain ⟨c, -, hc, rfl⟩ := replay_recvReply.1 h2
  have hc := of_decide_eq_true hc.symm
  subst h1
  simp [air, host, Heard.air?, Heard.host?, hc]

theorem replay_remoteOob {t : List Heard} (h : replay remoteOob t = some true) :
    air t = [] ∧ host t = [.event .remoteOobDataRequest, .command .oobReply, .event (.answer .oobReply .success)] := by
  obtain ⟨_, t1, h1, t2, h2, rfl⟩ := replay_seq.1 h
  rw [replay_hci] at h1
  obtain ⟨c, -, hc, rfl⟩ := replay_recvReply.1 h2
  have hc := of_decide_eq_true hc.symm
  subst h1
  simp [air, host, Heard.air?, Heard.host?, hc]

theorem replay_roundI {t : List Heard} (h : replay passkeyRoundI t = some ()) :
    air t = [.tx (.confirm true), .rx (.confirm true)] ++ nonces ∧ host t = [] := by
  obtain ⟨_, t1, h1, t2, h2, rfl⟩ := replay_seq.1 h
  rw [replay_lmp] at h1
  obtain ⟨l, t5, h5, t6, h6, rfl⟩ := replay_seq.1 h2
  obtain ⟨ha, rfl⟩ := replay_recvLmp.1 h5
  obtain ⟨rfl, h7, h8⟩ := replay_sendCommitment h6
  subst h1
  simp only [air_append, host_append, h7, h8]
  exact ⟨rfl, rfl⟩

theorem replay_roundR {t : List Heard} (h : replay passkeyRoundR t = some ()) :
    air t = ([Air.tx (.confirm true), .rx (.confirm true)] ++ nonces).map Air.mirror ∧ host t = [] := by
  obtain ⟨l, t5, h5, t6, h6, rfl⟩ := replay_seq.1 h
  obtain ⟨ha, rfl⟩ := replay_recvLmp.1 h5
  obtain ⟨_, t1, h1, t2, h2, rfl⟩ := replay_seq.1 h6
  obtain ⟨rfl, rfl⟩ := replay_checkCommitment h1
  obtain ⟨h7, h8⟩ := replay_receiveCommitment h2
  simp only [air_append, host_append, h7, h8]
  exact ⟨rfl, rfl⟩

/-- The challenge of the initiator with the new key, then that of the responder. -/
theorem replay_sendChallenge {t : List Heard} (h : replay sendChallenge t = some true) :
    air t = [.tx .auRand, .rx .sres] ∧ host t = [] := by
  obtain ⟨_, t1, h1, t2, h2, rfl⟩ := replay_seq.1 h
  rw [replay_lmp] at h1
  obtain ⟨l, t5, h5, t6, h6, rfl⟩ := replay_seq.1 h2
  obtain ⟨ha, rfl⟩ := replay_recvLmp.1 h5
  obtain ⟨h7, rfl⟩ := replay_pure.1 h6
  obtain rfl := isSres_cases h7
  subst h1
  exact ⟨rfl, rfl⟩

theorem replay_receiveChallenge {t : List Heard} (h : replay receiveChallenge t = some ()) :
    air t = [.rx .auRand, .tx .sres] ∧ host t = [] := by
  obtain ⟨l, t5, h5, t6, h6, rfl⟩ := replay_seq.1 h
  obtain ⟨ha, rfl⟩ := replay_recvLmp.1 h5
  rw [replay_lmp] at h6
  obtain rfl := isAuRand_cases ha
  subst h6
  exact ⟨rfl, rfl⟩

end Verif.Lmp
