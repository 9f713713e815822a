import Verif.Lmp.StepLemmas

/-!
# C35: every HCI command routed to the link manager is answered
-/

namespace Verif.Lmp

/-- **C35, exactly one answer.** After any history of calls that has not ended the process, whatever the
host and the peers sent: of each kind of command, the number handed over is the number answered plus the
number that still waits in a command slot. So no command gets two answers, no answer comes without a command,
and what is not answered has not been dropped. -/
theorem C35_answered_once {f : Feats} {ops : List Op} {m : Mgr} {outs : List MOut}
    (h : run (.init f) ops = .ok m outs) (k : Kind) : commands k ops = answered k outs + waiting k m := by
  have := run_induct (f := f)
    (C := fun ops outs m => (∀ l ∈ m.links, LinkFine false l) ∧ commands k ops = answered k outs + waiting k m)
    ⟨init_fine f, by simp [commands, answered, waiting, init_holds]⟩
    (fun ops outs m op m' o ⟨h1, h2⟩ hs => by
      obtain ⟨h3, h4⟩ := step_balance (P := fun _ k' => k' = k) h1 (fun _ _ _ _ => rfl) (fun _ _ _ h => nomatch h) hs
      refine ⟨h3, ?_⟩
      unfold commands answered waiting at *
      rw [countP_snoc, List.countP_append]
      omega)
    h
  exact this.2

/-- Each peer has at most one link at a time. -/
def OneLinkEach (ops : List Op) : Prop := ∀ pre a post, ops = pre ++ .add a :: post → a ∉ linked pre

/-- No command is about the empty address. -/
def RealAddresses (ops : List Op) : Prop := ∀ c, .hci (some c) ∈ ops → c.addr ≠ emptyAddress

private theorem OneLinkEach.prefix {ops : List Op} {op : Op} (h : OneLinkEach (ops ++ [op])) : OneLinkEach ops :=
  fun pre a post e => h pre a (post ++ [op]) (by simp [e])

private theorem RealAddresses.prefix {ops : List Op} {op : Op} (h : RealAddresses (ops ++ [op])) : RealAddresses ops :=
  fun c hc => h c (by simp [hc])

/-- What holds after a history without commands about the empty address. -/
private structure After (f : Feats) (s : Bool) (ops : List Op) (outs : List MOut) (m : Mgr) : Prop where
  fine : ∀ l ∈ m.links, LinkFine s l
  tidy : Tidy m
  peers : PeersOk m.links (linked ops)
  balance : ∀ P, ops.countP (Op.isCmd P) = outs.countP (MOut.isAnswer P) + m.links.countP (Link.holds P)

private theorem after_init (f : Feats) (s : Bool) : After f s [] [] (.init f) :=
  ⟨init_fine f, init_tidy f, init_peers f, fun P => by simp [init_holds]⟩

private theorem After.step {f : Feats} {s : Bool} {ops : List Op} {outs : List MOut} {m m' : Mgr} {op : Op} {o : List MOut}
    (h : After f s ops outs m) (hz : ∀ c, op = .hci (some c) → c.addr ≠ emptyAddress)
    (hw : ∀ a p, op = .lmp a (some p) → s = true → p.wellFormed = true) (hs : step m op = .ok m' o) :
    After f s (ops ++ [op]) (outs ++ o) m' := by
  refine ⟨(step_balance h.fine (h.tidy.fits (fun _ _ => true)) hw hs).1, step_tidy h.fine h.tidy hz hs, ?_, fun P => ?_⟩
  · rw [linked_snoc]
    exact step_peers h.fine h.peers hs
  · have h1 := (step_balance h.fine (h.tidy.fits P) hw hs).2
    have h2 := h.balance P
    rw [countP_snoc, List.countP_append]
    omega

private theorem after_run {f : Feats} {ops : List Op} {m : Mgr} {outs : List MOut}
    (h : run (.init f) ops = .ok m outs) (hz : RealAddresses ops) : After f false ops outs m :=
  run_induct (f := f) (C := fun ops outs m => RealAddresses ops → After f false ops outs m)
    (fun _ => after_init f false)
    (fun ops outs m op m' o ih hs hz' =>
      (ih hz'.prefix).step (fun c hc => hz' c (by simp [hc])) (fun _ _ _ h => nomatch h) hs)
    h hz

/-- **C35, no later than the removal of the link.** Provided that no command names the empty address and
that each peer has at most one link at a time: after any history, when a link has been removed, every
command about its peer has been answered, exactly once, by an event about that peer. -/
theorem C35_answered_by_removal_partial {f : Feats} {ops : List Op} {a : Nat} {m : Mgr} {outs : List MOut}
    (h : run (.init f) (ops ++ [.remove a]) = .ok m outs) (hz : RealAddresses ops) (hl : OneLinkEach ops)
    (ha : a ≠ emptyAddress) (k : Kind) :
    commandsFor a k (ops ++ [.remove a]) = answeredFor a k outs := by
  have hz' : RealAddresses (ops ++ [.remove a]) := by
    intro c hc
    simp only [List.mem_append, List.mem_singleton] at hc
    rcases hc with hc | hc
    · exact hz c hc
    · cases hc
  have inv := after_run h hz'
  have hbal := inv.balance (fun a' k' => a' = a && k' = k)
  have hcount := inv.peers.count a ha
  have hone : (linked ops).count a ≤ 1 := by
    have : ∀ ops, OneLinkEach ops → (linked ops).count a ≤ 1 := by
      intro ops
      suffices ∀ n ops, ops.length = n → OneLinkEach ops → (linked ops).count a ≤ 1 from this _ ops rfl
      intro n
      induction n with
      | zero =>
        intro ops hn _
        rw [List.length_eq_zero_iff.1 hn]
        simp [linked]
      | succ n ih =>
        intro ops hn ho
        have hne : ops ≠ [] := by intro h; rw [h] at hn; cases hn
        obtain ⟨pre, op, rfl⟩ : ∃ pre op, ops = pre ++ [op] := ⟨_, _, (List.dropLast_concat_getLast hne).symm⟩
        have hih := ih pre (by simpa using hn) ho.prefix
        rw [linked_snoc]
        cases op with
        | add b =>
          have := ho pre b [] rfl
          simp only [linkStep, List.count_append, List.count_singleton]
          by_cases hb : b = a
          · subst hb
            rw [List.count_eq_zero.2 this]
            simp
          · rw [if_neg (by simpa using hb)]
            omega
        | remove b =>
          simp only [linkStep]
          exact Nat.le_trans (List.Sublist.count_le _ (List.erase_sublist)) hih
        | hci c => exact hih
        | lmp c p => exact hih
        | tick => exact hih
    exact this ops hl
  have hzero : m.links.countP (Link.holds (fun a' k' => a' = a && k' = k)) = 0 := by
    rw [linked_snoc, linkStep, List.count_erase_self] at hcount
    have hno : m.links.countP (fun x => x.peer = a) = 0 := by omega
    refine List.countP_eq_zero.2 (fun l hm hh => ?_)
    have h1 := List.countP_eq_zero.1 hno l hm
    unfold Link.holds at hh
    cases hs : l.slot with
    | none => rw [hs] at hh; simp at hh
    | some c =>
      rw [hs] at hh
      simp only [Bool.and_eq_true, decide_eq_true_eq] at hh
      exact h1 (by simpa [← (inv.tidy l hm c hs).1] using hh.1)
  unfold commandsFor answeredFor
  omega

private theorem history_after {f : Feats} {ops : List Op} {outs : List MOut} {m : Mgr} (h : History f ops outs m) :
    After f true ops outs m ∧ emptyAddress ∉ linked ops := by
  induction h with
  | start => exact ⟨after_init f true, by simp [linked]⟩
  | next hh hal hst ih =>
    rename_i ops outs m op m' o
    refine ⟨ih.1.step ?_ ?_ hst, ?_⟩
    · rintro c rfl
      obtain ⟨c', h1, -, h3, -⟩ := hal
      cases h1
      exact h3
    · rintro a p rfl -
      obtain ⟨p', h1, h2⟩ := hal
      cases h1
      exact h2
    · rw [linked_snoc]
      cases op with
      | add a =>
        simp only [linkStep, List.mem_append, List.mem_singleton, not_or]
        exact ⟨ih.2, Ne.symm hal.1⟩
      | remove a => exact fun hm => ih.2 (List.mem_of_mem_erase hm)
      | hci c => exact ih.2
      | lmp a p => exact ih.2
      | tick => exact ih.2

/-- **C35, no command makes the manager abort.** After any history of calls of a well-behaved host and
well-behaved peers (`Allowed`), no further such call ends the process. -/
theorem C35_no_abort_partial {f : Feats} {ops : List Op} {outs : List MOut} {m : Mgr} {op : Op}
    (h : History f ops outs m) (hal : Allowed ops outs op) : ∃ m' o, step m op = .ok m' o := by
  obtain ⟨inv, hzero⟩ := history_after h
  cases op with
  | hci c =>
    obtain ⟨c, rfl, hk, ha, hflow⟩ := hal
    have hb := inv.balance (fun _ _ => true)
    have hno : m.links.countP (Link.holds (fun _ _ => true)) = 0 := by omega
    simp only [step, ingestHci]
    split
    · rename_i i hi
      cases hlk : c.lookup with
      | none => rw [hlk] at hi; cases hi
      | some b =>
        rw [hlk] at hi
        obtain ⟨l, hget, -⟩ := position_some hi
        rw [hget]
        simp only
        have hs : l.slot = none := by
          have := List.countP_eq_zero.1 hno l (List.mem_of_getElem? hget)
          cases hs : l.slot with
          | none => rfl
          | some d => simp [Link.holds, hs] at this
        simp [hs]
    · simp only [complete]
      have : c.kind.answerable = true := by
        unfold Kind.answerable
        split
        · rename_i h; exact absurd h hk
        · rfl
      rw [if_pos this]
      exact ⟨_, _, rfl⟩
  | lmp a p =>
    obtain ⟨p, rfl, -⟩ := hal
    simp only [step, ingestLmp]
    split
    · rename_i i hi
      obtain ⟨l, hget, -⟩ := position_some hi
      rw [hget]
      exact ⟨_, _, rfl⟩
    · exact ⟨_, _, rfl⟩
  | add a =>
    obtain ⟨-, -, hlen⟩ := hal
    simp only [step, addLink]
    cases hi : position (fun l => decide (l.peer = emptyAddress)) m.links with
    | some i =>
      obtain ⟨l, hget, -⟩ := position_some hi
      simp only [hget]
      exact ⟨_, _, rfl⟩
    | none =>
      have h1 := position_none hi
      have h2 : m.links.countP (fun x => x.peer ≠ emptyAddress) = m.links.length :=
        List.countP_eq_length.2 (fun l hl => by simpa using h1 l hl)
      have h3 := inv.peers.used
      have h4 := List.countP_le_length (l := linked ops) (p := fun a => decide (a ≠ emptyAddress))
      have h5 := inv.peers.size
      (have hm : maxPeers = 7 := rfl; omega)
  | remove a =>
    have ha : a ≠ emptyAddress := by
      rintro rfl
      exact hzero hal
    simp only [step, removeLink]
    cases hi : position (fun l => decide (l.peer = a)) m.links with
    | some i =>
      obtain ⟨l, hget, -⟩ := position_some hi
      simp only [hget]
      cases hs : l.slot with
      | none => exact ⟨_, _, rfl⟩
      | some c =>
        simp only [complete]
        have hk : c.kind.answerable = true := (inv.tidy l (List.mem_of_getElem? hget) c hs).2.2
        rw [if_pos hk]
        exact ⟨_, _, rfl⟩
    | none =>
      have h1 := position_none hi
      have h2 := inv.peers.count a ha
      have h3 : m.links.countP (fun x => x.peer = a) = 0 :=
        List.countP_eq_zero.2 (fun l hl => by simpa using h1 l hl)
      rw [h3] at h2
      exact absurd (List.count_pos_iff.2 hal) (by omega)
  | tick =>
    simp only [step, tick]
    have h1 := (tickLinks_fine (P := fun _ _ => true) inv.fine (inv.tidy.fits _)).1
    cases ht : tickLinks m.links with
    | none => exact absurd (h1 ht) nofun
    | some x => exact ⟨_, _, rfl⟩

/-! ## Where the code violates the property -/

private def f0 : Feats := ⟨⟨true, true, false⟩, ⟨false, false, true⟩, ⟨false, false, false⟩⟩

/-- Did the history end the process? -/
def aborts (ops : List Op) : Bool :=
  match run (.init f0) ops with
  | .ok _ _ => false
  | _ => true

/-- What was sent. -/
def sent (ops : List Op) : Option (List MOut) :=
  match run (.init f0) ops with
  | .ok _ o => some o
  | _ => none

private def pin (a : Nat) : Cmd := ⟨.pinReply, a, ⟨.displayOnly, .notPresent, .noBonding⟩⟩

/-- A command about the empty address is put into the slot of an unused link. -/
private theorem stray (f : Feats) :
    ingestHci (.init f) (some (pin 0)) =
      .ok { Mgr.init f with links := (Mgr.init f).links.set 0 { Link.unused with slot := some (pin 0) } } [] := rfl

/-- **C35 is violated: a command about the empty address is never answered.** It lands in the slot of an
unused link, which no procedure looks at: no number of ticks brings an answer. A second one aborts. -/
theorem C35_empty_address_violated :
    (∀ (f : Feats) (n : Nat), ∃ m, run (.init f) (.hci (some (pin 0)) :: List.replicate n .tick) = .ok m []) ∧
    aborts [.hci (some (pin 0)), .hci (some (pin 0))] = true := by
  constructor
  · intro f n
    simp only [run, step, stray]
    have : ∀ n, run { Mgr.init f with links := (Mgr.init f).links.set 0 { Link.unused with slot := some (pin 0) } }
        (List.replicate n .tick) =
        .ok { Mgr.init f with links := (Mgr.init f).links.set 0 { Link.unused with slot := some (pin 0) } } [] := by
      intro n
      induction n with
      | zero => rfl
      | succ n ih =>
        rw [List.replicate_succ, run]
        have e : step { Mgr.init f with links := (Mgr.init f).links.set 0 { Link.unused with slot := some (pin 0) } } .tick =
          .ok { Mgr.init f with links := (Mgr.init f).links.set 0 { Link.unused with slot := some (pin 0) } } [] := rfl
        rw [e]
        simp only
        rw [ih]
        rfl
    rw [this n]
    exact ⟨_, rfl⟩
  · decide +kernel

/-- **C35 is violated: commands that make the manager abort.** The Remote OOB Extended Data Request Reply
command, which the controller lists as supported; a command with a field value the specification does not
list; a second command for a link while one waits. -/
theorem C35_command_aborts_violated :
    aborts [.hci (some ⟨.oobExtended, 5, ⟨.displayOnly, .notPresent, .noBonding⟩⟩)] = true ∧
    aborts [.hci none] = true ∧
    aborts [.add 5, .hci (some (pin 5)), .tick, .hci (some (pin 5))] = true := by
  decide +kernel

/-- **C35 is violated: packets of a peer that make the manager abort.** IO capabilities with a value the
specification does not list, a public key of another length, a packet that does not decode. Each ends the
process at the next tick at the latest. -/
theorem C35_packet_aborts_violated :
    aborts [.add 5, .lmp 5 (some (.ioReq none)), .tick] = true ∧
    aborts [.add 5, .lmp 5 (some (.ioReq (some ⟨.displayOnly, .notPresent, .noBonding⟩))), .tick,
      .hci (some ⟨.ioReply, 5, ⟨.displayOnly, .notPresent, .noBonding⟩⟩), .tick,
      .lmp 5 (some (.encapsulatedHeader 49)), .tick] = true ∧
    aborts [.add 5, .lmp 5 none] = true := by
  decide +kernel

/-- **C35 is violated: the eighth link.** -/
theorem C35_eighth_link_violated :
    aborts [.add 1, .add 2, .add 3, .add 4, .add 5, .add 6, .add 7] = false ∧
    aborts [.add 1, .add 2, .add 3, .add 4, .add 5, .add 6, .add 7, .add 8] = true := by
  decide +kernel

/-! ## The hypotheses are met -/

/-- An authentication that the peer does not answer, cut short by the removal of the link while a command
of the host waits. -/
private def exOps : List Op :=
  [.add 5, .hci (some ⟨.authenticationRequested, 5, ⟨.displayOnly, .notPresent, .noBonding⟩⟩), .tick,
   .hci (some (pin 5)), .tick, .hci (some (pin 6))]

example : sent (exOps ++ [.remove 5]) = some
    [.hci 5 (.answer .authenticationRequested .success), .hci 5 .linkKeyRequest,
     .hci 6 (.answer .pinReply .invalidParameters), .hci 5 (.answer .pinReply .unknownConnection)] := by
  decide +kernel

example : RealAddresses exOps ∧ OneLinkEach exOps := by
  constructor
  · intro c hc
    simp only [exOps, List.mem_cons, List.not_mem_nil, or_false, Op.hci.injEq, Option.some.injEq, reduceCtorEq, false_or] at hc
    rcases hc with rfl | rfl | rfl <;> decide
  · intro pre a post h
    match pre with
    | [] => simp [linked]
    | x :: pre' =>
      exfalso
      simp only [exOps, List.cons_append, List.cons.injEq] at h
      have : Op.add a ∈ [Op.hci (some ⟨.authenticationRequested, 5, ⟨.displayOnly, .notPresent, .noBonding⟩⟩), .tick,
        .hci (some (pin 5)), .tick, .hci (some (pin 6))] := by rw [h.2]; simp
      simp at this

/-- A history of well-behaved calls. -/
example : ∃ outs m, History f0
    [.add 5, .hci (some ⟨.authenticationRequested, 5, ⟨.displayOnly, .notPresent, .noBonding⟩⟩), .tick,
     .hci (some ⟨.linkKeyNeg, 5, ⟨.displayOnly, .notPresent, .noBonding⟩⟩), .tick, .lmp 5 (some (.featuresRes ⟨true, true, false⟩)),
     .tick, .remove 5] outs m := by
  have h0 := History.start (f := f0)
  have h1 := h0.next (op := .add 5) (by show (5 : Nat) ≠ _ ∧ _ ∧ _; decide) rfl
  have h2 := h1.next (op := .hci (some ⟨.authenticationRequested, 5, ⟨.displayOnly, .notPresent, .noBonding⟩⟩))
    ⟨_, rfl, by decide, by decide, rfl⟩ rfl
  have h3 := h2.next (op := .tick) trivial rfl
  have h4 := h3.next (op := .hci (some ⟨.linkKeyNeg, 5, ⟨.displayOnly, .notPresent, .noBonding⟩⟩))
    ⟨_, rfl, by decide, by decide, rfl⟩ rfl
  have h5 := h4.next (op := .tick) trivial rfl
  have h6 := h5.next (op := .lmp 5 (some (.featuresRes ⟨true, true, false⟩))) ⟨_, rfl, rfl⟩ rfl
  have h7 := h6.next (op := .tick) trivial rfl
  have h8 := h7.next (op := .remove 5) (by show 5 ∈ linked _; decide) rfl
  exact ⟨_, _, h8⟩

end Verif.Lmp
