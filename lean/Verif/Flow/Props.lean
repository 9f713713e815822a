import Verif.Flow.ReadLemmas
/-! # C94: every data packet is credited once; C95: the local loopback; C96: data arrives octet for octet -/
namespace Verif.Flow

/-- The packets of the connection `h` that the host is told are completed. -/
def acks (h : Nat) (o : List Out) : Nat := o.countP (fun x => x = .event (completedOctets h))

/-- The octets are an ACL data packet of the connection `h`. -/
def In.carries (h : Nat) : In → Bool
  | .acl l => aclHandle l == some h
  | _ => false

/-- The ACL data packets of the connection `h` that the host hands over. -/
def handed (h : Nat) (is : List In) : Nat := is.countP (In.carries h)

/-- Only octets are handed over. -/
def In.sane : In → Prop
  | .acl l => Octets l
  | .sco l => Octets l
  | .command l => Octets l
  | .brAir l => Octets l
  | .leAir l => Octets l
  | _ => True

/-- The connection `h` is not used for synchronous data. -/
def In.other (h : Nat) : In → Prop
  | .sco l => scoHandle l ≠ some h
  | _ => True

def Bounded (c : Ctl) : Prop := ∀ k ∈ c.brTasks ++ c.leTasks, k < 4096
def pending (h : Nat) (c : Ctl) : Nat := (c.brTasks ++ c.leTasks).count h

theorem completed_inj {h k : Nat} (e : completedOctets h = completedOctets k) : h = k := by
  simp only [completedOctets, List.cons.injEq] at e
  omega

theorem acks_append (h : Nat) (o o' : List Out) : acks h (o ++ o') = acks h o + acks h o' := by
  simp [acks, List.countP_append]

theorem acks_one {h k : Nat} (hk : k < 4096) : acks h [.event (credit k)] = if k = h then 1 else 0 := by
  rw [write_credit hk]
  simp only [acks, List.countP_singleton, Out.event.injEq, decide_eq_true_eq]
  by_cases e : k = h
  · subst e; simp
  · rw [if_neg (fun e' => e (completed_inj e')), if_neg e]

theorem acks_tasks {h : Nat} : ∀ l : List Nat, (∀ k ∈ l, k < 4096) → acks h (l.map (fun k => .event (credit k))) = l.count h := by
  intro l
  induction l with
  | nil => intro _; rfl
  | cons a l ih =>
    intro hl
    have := acks_append h [.event (credit a)] (l.map (fun k => .event (credit k)))
    simp only [List.map_cons]
    rw [show (Out.event (credit a) :: l.map (fun k => Out.event (credit k))) = [.event (credit a)] ++ l.map (fun k => .event (credit k)) from rfl,
      this, acks_one (hl a (by simp)), ih (fun k hk => hl k (by simp [hk])), List.count_cons]
    simp only [beq_iff_eq]
    omega

theorem acks_quiet {h : Nat} {o : List Out} (hq : ∀ x ∈ o, ∀ l, x ≠ .event l) : acks h o = 0 := by
  simp only [acks, List.countP_eq_zero, decide_eq_true_eq]
  exact fun x hx => hq x hx _

theorem acks_loopback {h : Nat} {l : List Nat} (ho : Octets l) :
    acks h [.event (Pdl.serialize loopbackCommand ((25, ()), (), ()) l)] = 0 := by
  rw [write_loopback ho]
  simp [acks, completedOctets]

theorem receive_quiet {c : Ctl} {l : List Nat} {o : List Out} (hr : brReceive c l = some o ∨ leReceive c l = some o) :
    ∀ x ∈ o, ∀ l, x ≠ .event l := by
  rcases hr with hr | hr
  · simp only [brReceive] at hr
    repeat' split at hr
    all_goals first
      | (cases hr; done)
      | (cases hr; simp; done)
  · simp only [leReceive] at hr
    repeat' split at hr
    all_goals first
      | (cases hr; done)
      | (cases hr; simp; done)

theorem step_credit {h : Nat} {c c' : Ctl} {i : In} {o : List Out} (hb : Bounded c) (hs : i.sane) (ht : i.other h)
    (hr : step c i = some (c', o)) : Bounded c' ∧ acks h o + pending h c' = pending h c + handed h [i] := by
  have hand : handed h [i] = if i.carries h then 1 else 0 := by simp [handed, List.countP_singleton]
  cases i with
  | acl l =>
    simp only [step, handleAcl] at hr
    rcases parse_aclHandle hs with ⟨h1, h2⟩ | ⟨k, pb, data, h1, hk, h2⟩
    · rw [h2] at hr; cases hr
      have hc : handed h [.acl l] = 0 := by simp [hand, In.carries, h1]
      exact ⟨hb, by rw [hc]; simp [acks]⟩
    · rw [h2] at hr
      have hc : handed h [.acl l] = if k = h then 1 else 0 := by simp [hand, In.carries, h1]
      rw [hc]
      simp only [] at hr
      split at hr
      · cases hr
        refine ⟨hb, ?_⟩
        rw [show ([Out.acl (Pdl.serialize hciAcl ((k, pb, aclBroadcast l, ()), ()) data), .event (credit k)] : List Out) = [.acl _] ++ [.event (credit k)] from rfl,
          acks_append, acks_one hk, acks_quiet (o := [.acl _]) (by simp)]
        omega
      · split at hr
        · simp only [brHandleAcl] at hr
          split at hr
          · cases hr
          · have hb' : Bounded { c with brTasks := c.brTasks ++ [k] } := by
              intro x hx
              simp only [List.mem_append, List.mem_singleton] at hx
              rcases hx with (hx | rfl) | hx
              · exact hb x (by simp [hx])
              · exact hk
              · exact hb x (by simp [hx])
            have hp : pending h { c with brTasks := c.brTasks ++ [k] } = pending h c + if k = h then 1 else 0 := by
              simp only [pending, List.count_append, List.count_singleton, beq_iff_eq]; omega
            split at hr
            · cases hr; exact ⟨hb', by rw [hp, acks_quiet (by simp)]; omega⟩
            · cases hr; exact ⟨hb', by rw [hp, acks_quiet (by simp)]; omega⟩
        · split at hr
          · simp only [leHandleAcl] at hr
            split at hr
            · cases hr
            · have hb' : Bounded { c with leTasks := c.leTasks ++ [k] } := by
                intro x hx
                simp only [List.mem_append, List.mem_singleton] at hx
                rcases hx with hx | hx | rfl
                · exact hb x (by simp [hx])
                · exact hb x (by simp [hx])
                · exact hk
              have hp : pending h { c with leTasks := c.leTasks ++ [k] } = pending h c + if k = h then 1 else 0 := by
                simp only [pending, List.count_append, List.count_singleton, beq_iff_eq]; omega
              split at hr
              · cases hr; exact ⟨hb', by rw [hp, acks_quiet (by simp)]; omega⟩
              · cases hr; exact ⟨hb', by rw [hp, acks_quiet (by simp)]; omega⟩
          · cases hr
            exact ⟨hb, by rw [acks_one hk]; omega⟩
  | sco l =>
    have hz : handed h [.sco l] = 0 := by simp [hand, In.carries]
    rw [hz]
    simp only [step, handleSco] at hr
    rcases parse_scoHandle hs with ⟨h1, h2⟩ | ⟨k, st, data, h1, hk, h2⟩
    · rw [h2] at hr; cases hr
      exact ⟨hb, by simp [acks]⟩
    · rw [h2] at hr
      have hne : k ≠ h := by
        intro e; subst e; exact ht h1
      simp only [] at hr
      split at hr
      · cases hr
        refine ⟨hb, ?_⟩
        rw [show ∀ (a : Out) b, a :: b = [a] ++ b from fun _ _ => rfl, acks_append, acks_quiet (o := [.sco _]) (by simp)]
        split
        · rw [acks_one hk, if_neg hne]; simp
        · simp [acks]
      · cases hr
        refine ⟨hb, ?_⟩
        rw [acks_quiet (by simp only [sendSco]; split <;> simp)]; simp
  | command l =>
    have hz : handed h [.command l] = 0 := by simp [hand, In.carries]
    rw [hz]
    simp only [step, handleCommand] at hr
    split at hr
    · cases hr; exact ⟨hb, by simp [acks]⟩
    · split at hr
      · cases hr; exact ⟨hb, by rw [acks_loopback hs]; simp⟩
      · rename_i op ps _ _
        have e : ∃ c1 o1, execute c op ps = (c1, o1) ∧ c1.brTasks = c.brTasks ∧ c1.leTasks = c.leTasks ∧ ∀ x ∈ o1, ∀ l, x ≠ .event l := by
          simp only [execute]
          repeat' split
          all_goals exact ⟨_, _, rfl, rfl, rfl, by simp⟩
        obtain ⟨c1, o1, e1, e2, e3, e4⟩ := e
        rw [e1] at hr; cases hr
        refine ⟨by simp only [Bounded, e2, e3]; exact hb, ?_⟩
        rw [acks_quiet e4]; simp [pending, e2, e3]
  | brAir l =>
    rw [hand]
    simp only [step, Option.map_eq_some_iff] at hr
    obtain ⟨o', h1, h2⟩ := hr
    cases h2
    exact ⟨hb, by rw [acks_quiet (receive_quiet (.inl h1))]; simp [In.carries]⟩
  | leAir l =>
    rw [hand]
    simp only [step, Option.map_eq_some_iff] at hr
    obtain ⟨o', h1, h2⟩ := hr
    cases h2
    exact ⟨hb, by rw [acks_quiet (receive_quiet (.inr h1))]; simp [In.carries]⟩
  | links a s e =>
    rw [hand]
    cases hr
    exact ⟨hb, by simp [acks, pending, In.carries]⟩
  | tick =>
    rw [hand]
    cases hr
    refine ⟨by simp [Bounded], ?_⟩
    rw [acks_tasks _ hb]
    simp [pending, In.carries]

theorem run_credit {h : Nat} : ∀ (is : List In) {c c' : Ctl} {o : List Out}, Bounded c → (∀ i ∈ is, i.sane) → (∀ i ∈ is, i.other h) →
    run c is = some (c', o) → Bounded c' ∧ acks h o + pending h c' = pending h c + handed h is := by
  intro is
  induction is with
  | nil => intro c c' o hb _ _ hr; cases hr; exact ⟨hb, by simp [acks, handed]⟩
  | cons i is ih =>
    intro c c' o hb hs ht hr
    simp only [run] at hr
    split at hr
    · cases hr
    · rename_i c1 o1 e1
      split at hr
      · cases hr
      · rename_i c2 o2 e2
        cases hr
        obtain ⟨b1, p1⟩ := step_credit hb (hs i (by simp)) (ht i (by simp)) e1
        obtain ⟨b2, p2⟩ := ih b1 (fun j hj => hs j (by simp [hj])) (fun j hj => ht j (by simp [hj])) e2
        refine ⟨b2, ?_⟩
        rw [acks_append]
        have : handed h (i :: is) = handed h [i] + handed h is := by
          simp only [handed, List.countP_cons, List.countP_nil]; omega
        omega

theorem run_append (is js : List In) : ∀ (c : Ctl), run c (is ++ js) =
    match run c is with
    | none => none
    | some (c', o) => match run c' js with
      | none => none
      | some (c'', o') => some (c'', o ++ o') := by
  induction is with
  | nil => intro c; simp only [List.nil_append, run]; cases run c js <;> simp
  | cons i is ih =>
    intro c
    simp only [List.cons_append, run]
    cases step c i with
    | none => rfl
    | some x =>
      obtain ⟨c1, o1⟩ := x
      simp only [ih]
      cases run c1 is with
      | none => rfl
      | some y =>
        obtain ⟨c2, o2⟩ := y
        simp only
        cases run c2 js <;> simp

/-- C94. Whatever a host does, and whatever arrives meanwhile: at the end of every tick, every connection handle was credited
exactly as often as the host had handed over ACL data packets for it — connected or not, inside the loopback mode or not, of any
range of handles. -/
theorem C94_credited {c c' : Ctl} {is : List In} {o : List Out} {h : Nat} (h0 : c.brTasks = [] ∧ c.leTasks = [])
    (hs : ∀ i ∈ is, i.sane) (ht : ∀ i ∈ is, i.other h)
    (hr : run c (is ++ [.tick]) = some (c', o)) : acks h o = handed h is := by
  have hb : Bounded c := by simp [Bounded, h0.1, h0.2]
  have hs' : ∀ i ∈ is ++ [In.tick], i.sane := by
    intro i hi
    rcases List.mem_append.1 hi with hi | hi
    · exact hs i hi
    · simp only [List.mem_singleton] at hi; subst hi; trivial
  have ht' : ∀ i ∈ is ++ [In.tick], i.other h := by
    intro i hi
    rcases List.mem_append.1 hi with hi | hi
    · exact ht i hi
    · simp only [List.mem_singleton] at hi; subst hi; trivial
  obtain ⟨-, h2⟩ := run_credit _ hb hs' ht' hr
  have h3 : pending h c = 0 := by simp [pending, h0.1, h0.2]
  have h4 : handed h (is ++ [.tick]) = handed h is := by simp [handed, List.countP_append, In.carries]
  have h5 : pending h c' = 0 := by
    rw [run_append] at hr
    split at hr
    · cases hr
    · simp only [run, step] at hr
      cases hr
      simp [pending]
  omega

example : run (fresh 0xa1) [.links [(5, 0xb2)] [] [], .acl [5, 0x20, 1, 0, 0x77], .acl [0x34, 0x02, 0, 0], .acl [0xff, 0x0f, 0, 0], .tick] =
    some (⟨0xa1, 0, false, [(5, 0xb2)], [], [], [], []⟩,
      [.brAir [1, 0xa1, 0, 0, 0, 0, 0, 0xb2, 0, 0, 0, 0, 0, 2, 0, 0x77], .event [0x13, 5, 1, 0xff, 0x0f, 1, 0],
        .event [0x13, 5, 1, 5, 0, 1, 0], .event [0x13, 5, 1, 0x34, 2, 1, 0]]) := by decide +kernel

/-- C94. Handing over data aborts the controller exactly if the loopback mode is off, the handle is in a range of ACL connections,
and the packet is marked as a broadcast. -/
theorem C94_abort {c : Ctl} {l : List Nat} (ho : Octets l) :
    step c (.acl l) = none ↔
      c.loopback ≠ 1 ∧ aclBroadcast l ≠ 0 ∧ ∃ h, aclHandle l = some h ∧ (h < 0x100 ∨ 0x200 ≤ h ∧ h < 0x300) := by
  simp only [step, handleAcl]
  rcases parse_aclHandle ho with ⟨h1, h2⟩ | ⟨k, pb, data, h1, hk, h2⟩
  · simp [h1, h2]
  · rw [h2, h1]
    simp only [Option.some.injEq, exists_eq_left']
    by_cases hl : c.loopback = 1
    · simp [hl]
    · rw [if_neg hl]
      simp only [isAclHandle, isLeHandle, decide_eq_true_eq, Bool.and_eq_true]
      by_cases hb : aclBroadcast l = 0
      · simp only [hb, ne_eq, not_true_eq_false, false_and, and_false, iff_false]
        simp only [brHandleAcl, leHandleAcl]
        repeat' split
        all_goals first
          | (simp; done)
          | (rename_i hx; exact absurd rfl hx)
      · by_cases ha : k ≤ 0xff
        · rw [if_pos ha]
          simp only [brHandleAcl, hb, ne_eq, not_false_eq_true, if_true, true_iff]
          exact ⟨hl, trivial, .inl (by omega)⟩
        · rw [if_neg ha]
          by_cases hle : 0x200 ≤ k ∧ k ≤ 0x2ff
          · rw [if_pos hle]
            simp only [leHandleAcl, hb, ne_eq, not_false_eq_true, if_true, true_iff]
            exact ⟨hl, trivial, .inr (by omega)⟩
          · rw [if_neg hle]
            simp only [reduceCtorEq, false_iff, not_and]
            omega

example : step (fresh 0xa1) (.acl [5, 0x60, 0, 0]) = none ∧ (step (fresh 0xa1) (.acl [5, 0x63, 0, 0])).isSome = true := by
  decide +kernel

/-- C94. A controller in use is credited after a Reset for what was handed over before it: Reset does not discard the reports that
are on their way, so the host that begins anew is told of packets it has not sent since. -/
theorem C94_reset_violated : ∃ c c' o o', run (fresh 0xa1) [.links [(5, 0xb2)] [] [], .acl (aclOctets 5 2 0 [0x77]), .command (commandOctets 0x0c03 [])] = some (c, o) ∧
    acks 5 o = 0 ∧ run c [.tick] = some (c', o') ∧ acks 5 o' = 1 ∧ c.acl = [] :=
  ⟨⟨0xa1, 0, false, [], [], [], [5], []⟩, ⟨0xa1, 0, false, [], [], [], [], []⟩, [.brAir [1, 0xa1, 0, 0, 0, 0, 0, 0xb2, 0, 0, 0, 0, 0, 2, 0, 0x77]],
    [.event [0x13, 5, 1, 5, 0, 1, 0]], by decide +kernel⟩

/-- C94. What holds instead of a fresh start after a Reset: if a tick came between the last data and the Reset, the reports after
the Reset are for the packets after the Reset. -/
theorem C94_reset_partial {c c' c'' : Ctl} {is : List In} {o o' : List Out} {h : Nat}
    (h1 : run c [.tick, .command (commandOctets 0x0c03 [])] = some (c', o')) (hs : ∀ i ∈ is, i.sane) (ht : ∀ i ∈ is, i.other h)
    (hr : run c' (is ++ [.tick]) = some (c'', o)) : acks h o = handed h is := by
  refine C94_credited ?_ hs ht hr
  simp only [run, step, handleCommand] at h1
  rw [read_command (by decide) (by decide) (by simp [Octets])] at h1
  simp only [execute, show executed 0x0c03 = true from rfl, Bool.true_eq_false, and_false, if_true, if_false] at h1
  cases h1
  exact ⟨rfl, rfl⟩

theorem loop_sco {c : Ctl} {h st : Nat} {data : List Nat} (hf : ScoFields h st data) (hl : c.loopback = 1) :
    step c (.sco (scoOctets h st data)) =
      some (c, .sco (scoOctets h st data) :: if c.scoFlow then [.event (completedOctets h)] else []) := by
  simp only [step, handleSco, read_sco hf, if_pos hl, write_sco hf, write_credit hf.1]

/-- C94. Synchronous data is credited when the host has asked for it, in the loopback mode. -/
theorem C94_voice_partial {c : Ctl} {h st : Nat} {data : List Nat} (hf : ScoFields h st data) (hl : c.loopback = 1) :
    ∃ o, step c (.sco (scoOctets h st data)) = some (c, o) ∧ acks h o = if c.scoFlow then 1 else 0 := by
  refine ⟨_, loop_sco hf hl, ?_⟩
  rw [show ∀ (a : Out) b, a :: b = [a] ++ b from fun _ _ => rfl, acks_append, acks_quiet (o := [.sco _]) (by simp)]
  split
  · rw [← write_credit hf.1, acks_one hf.1]; simp
  · simp [acks]

/-- C94. Outside the loopback mode synchronous data is never credited, although the host has asked for it: after as many credits
as the controller has buffers, the host sends nothing any more. -/
theorem C94_voice_violated : ∃ c, run (fresh 0xa1) [.links [] [(0x100, 0xb2)] [], .command (commandOctets 0x0c2f [1])] = some (c, []) ∧
    c.scoFlow = true ∧ ∀ n c' o, run c (List.replicate n (.sco (scoOctets 0x100 0 [0x77])) ++ [.tick]) = some (c', o) →
      o = List.replicate n (.brAir [2, 0xa1, 0, 0, 0, 0, 0, 0xb2, 0, 0, 0, 0, 0, 0x77]) ∧ acks 0x100 o = 0 := by
  refine ⟨⟨0xa1, 0, true, [], [(0x100, 0xb2)], [], [], []⟩, by decide +kernel, rfl, fun n => ?_⟩
  have e : step ⟨0xa1, 0, true, [], [(0x100, 0xb2)], [], [], []⟩ (.sco (scoOctets 0x100 0 [0x77])) =
      some (⟨0xa1, 0, true, [], [(0x100, 0xb2)], [], [], []⟩, [.brAir [2, 0xa1, 0, 0, 0, 0, 0, 0xb2, 0, 0, 0, 0, 0, 0x77]]) := by decide +kernel
  have key : ∀ c' o, run ⟨0xa1, 0, true, [], [(0x100, 0xb2)], [], [], []⟩ (List.replicate n (.sco (scoOctets 0x100 0 [0x77])) ++ [.tick]) = some (c', o) →
      o = List.replicate n (.brAir [2, 0xa1, 0, 0, 0, 0, 0, 0xb2, 0, 0, 0, 0, 0, 0x77]) := by
    induction n with
    | zero => intro c' o hr; cases hr; rfl
    | succ n ih =>
      intro c' o hr
      rw [List.replicate_succ, List.cons_append, run, e] at hr
      simp only at hr
      split at hr
      · cases hr
      · rename_i c2 o2 e2
        cases hr
        rw [ih _ _ e2]; rfl
  intro c' o hr
  refine ⟨key c' o hr, ?_⟩
  rw [key c' o hr]
  exact acks_quiet fun x hx l e => by rw [List.eq_of_mem_replicate hx] at e; cases e

/-! ## The local loopback -/

/-- C95. In the local loopback mode an ACL data packet comes back as it is, and is credited at once; nothing else happens. -/
theorem C95_acl {c : Ctl} {h pb bc : Nat} {data : List Nat} (hf : AclFields h pb bc data) (hl : c.loopback = 1) :
    step c (.acl (aclOctets h pb bc data)) = some (c, [.acl (aclOctets h pb bc data), .event (completedOctets h)]) := by
  simp only [step, handleAcl, read_acl hf, if_pos hl, write_acl hf, write_credit hf.1]

example : AclFields 0x123 2 3 [1, 2, 3] := by
  refine ⟨by decide, by decide, by decide, by decide, ?_⟩
  simp [Octets]

/-- C95. So does a synchronous data packet, whatever its status. -/
theorem C95_sco {c : Ctl} {h st : Nat} {data : List Nat} (hf : ScoFields h st data) (hl : c.loopback = 1) :
    step c (.sco (scoOctets h st data)) =
      some (c, .sco (scoOctets h st data) :: if c.scoFlow then [.event (completedOctets h)] else []) := loop_sco hf hl

example : ScoFields 0x345 1 [9, 8] := by
  refine ⟨by decide, by decide, by decide, ?_⟩
  simp [Octets]

/-- C95. A command that the local loopback mode does not execute comes back in one Loopback Command event; 252 octets of parameters
fit in it. -/
theorem C95_command_partial {c : Ctl} {op : Nat} {ps : List Nat} (hl : c.loopback = 1) (h1 : op < 65536) (h2 : ps.length ≤ 252) (h3 : Octets ps)
    (h4 : op ∉ [0x0c03, 0x0c31, 0x0c33, 0x0c35, 0x1005, 0x1801, 0x1802]) :
    step c (.command (commandOctets op ps)) = some (c, [.event ([0x19, ps.length + 3] ++ commandOctets op ps)]) := by
  have he : executed op = false := by
    simp only [List.mem_cons, List.not_mem_nil, or_false, not_or] at h4
    simp only [executed, Bool.or_eq_false_iff, beq_eq_false_iff_ne]
    exact ⟨⟨⟨⟨⟨⟨h4.1, h4.2.1⟩, h4.2.2.1⟩, h4.2.2.2.1⟩, h4.2.2.2.2.1⟩, h4.2.2.2.2.2.1⟩, h4.2.2.2.2.2.2⟩
  have ho : Octets (commandOctets op ps) := by
    refine octets_of_append ?_ h3
    simp only [Octets, List.mem_cons, List.not_mem_nil, or_false, forall_eq_or_imp, forall_eq]
    omega
  have hlen : (commandOctets op ps).length % 256 = ps.length + 3 := by
    simp only [commandOctets, List.length_append, List.length_cons, List.length_nil]; omega
  simp only [step, handleCommand, read_command h1 (show ps.length < 256 by omega) h3, if_pos (And.intro hl he), write_loopback ho, hlen]

example : step { fresh 0xa1 with loopback := 1 } (.command (commandOctets 0x0c13 [0x41])) =
    some ({ fresh 0xa1 with loopback := 1 }, [.event [0x19, 4, 0x13, 0x0c, 1, 0x41]]) := by decide +kernel

/-- C95. A longer command comes back in an event that is longer than it says: of the length only the lowest eight bits are written,
and a host that reads the event as it should takes the rest for further packets. -/
theorem C95_command_violated {c : Ctl} {op : Nat} {ps : List Nat} (hl : c.loopback = 1) (h1 : op < 65536) (h2 : 252 < ps.length) (h2' : ps.length < 256)
    (h3 : Octets ps) (h4 : op ∉ [0x0c03, 0x0c31, 0x0c33, 0x0c35, 0x1005, 0x1801, 0x1802]) :
    ∃ rest, step c (.command (commandOctets op ps)) = some (c, [.event ([0x19, ps.length - 253] ++ rest)]) ∧
      rest = commandOctets op ps ∧ rest.length = ps.length + 3 := by
  have he : executed op = false := by
    simp only [List.mem_cons, List.not_mem_nil, or_false, not_or] at h4
    simp only [executed, Bool.or_eq_false_iff, beq_eq_false_iff_ne]
    exact ⟨⟨⟨⟨⟨⟨h4.1, h4.2.1⟩, h4.2.2.1⟩, h4.2.2.2.1⟩, h4.2.2.2.2.1⟩, h4.2.2.2.2.2.1⟩, h4.2.2.2.2.2.2⟩
  have ho : Octets (commandOctets op ps) := by
    refine octets_of_append ?_ h3
    simp only [Octets, List.mem_cons, List.not_mem_nil, or_false, forall_eq_or_imp, forall_eq]
    omega
  have hlen : (commandOctets op ps).length % 256 = ps.length - 253 := by
    simp only [commandOctets, List.length_append, List.length_cons, List.length_nil]; omega
  refine ⟨_, by simp only [step, handleCommand, read_command h1 h2' h3, if_pos (And.intro hl he), write_loopback ho, hlen], rfl, ?_⟩
  simp only [commandOctets, List.length_append, List.length_cons, List.length_nil]; omega

/-- C95. Over a whole session in the local loopback mode — data, commands that it does not execute, ticks, connections that end — the
data comes back in order, once, unchanged, and nothing is sent to another device. -/
theorem C95_session {is : List In} : ∀ {c c' : Ctl} {o : List Out}, c.loopback = 1 →
    (∀ i ∈ is, (∃ h pb bc d, AclFields h pb bc d ∧ i = .acl (aclOctets h pb bc d)) ∨ (∃ h st d, ScoFields h st d ∧ i = .sco (scoOctets h st d)) ∨
      (∃ op ps, op < 65536 ∧ ps.length < 256 ∧ Octets ps ∧ op ∉ [0x0c03, 0x0c31, 0x0c33, 0x0c35, 0x1005, 0x1801, 0x1802] ∧ i = .command (commandOctets op ps)) ∨
      i = .tick ∨ ∃ a s e, i = .links a s e) →
    run c is = some (c', o) →
    c'.loopback = 1 ∧
    o.filterMap (fun | .acl l => some (0, l) | .sco l => some (1, l) | _ => none) =
      is.filterMap (fun | .acl l => some (0, l) | .sco l => some (1, l) | _ => none) ∧
    ∀ l, .brAir l ∉ o ∧ .leAir l ∉ o := by
  induction is with
  | nil => intro c c' o hl _ hr; cases hr; exact ⟨hl, rfl, by simp⟩
  | cons i is ih =>
    intro c c' o hl hi hr
    simp only [run] at hr
    split at hr
    · cases hr
    · rename_i c1 o1 e1
      split at hr
      · cases hr
      · rename_i c2 o2 e2
        cases hr
        have key : c1.loopback = 1 ∧ o1.filterMap (fun | .acl l => some (0, l) | .sco l => some (1, l) | _ => none) =
            [i].filterMap (fun | .acl l => some (0, l) | .sco l => some (1, l) | _ => none) ∧ ∀ l, .brAir l ∉ o1 ∧ .leAir l ∉ o1 := by
          rcases hi i (by simp) with ⟨h, pb, bc, d, hf, rfl⟩ | ⟨h, st, d, hf, rfl⟩ | ⟨op, ps, h1, h2, h3, h4, rfl⟩ | rfl | ⟨a, s, e, rfl⟩
          · rw [C95_acl hf hl] at e1; cases e1; exact ⟨hl, rfl, by simp⟩
          · rw [C95_sco hf hl] at e1; cases e1
            refine ⟨hl, ?_, ?_⟩
            · split <;> rfl
            · intro l; split <;> simp
          · have : ∃ x, step c (.command (commandOctets op ps)) = some (c, [.event x]) := by
              by_cases hp : ps.length ≤ 252
              · exact ⟨_, C95_command_partial hl h1 hp h3 h4⟩
              · obtain ⟨r, hr, -⟩ := C95_command_violated hl h1 (by omega) h2 h3 h4
                exact ⟨_, hr⟩
            obtain ⟨x, hx⟩ := this
            rw [hx] at e1; cases e1; exact ⟨hl, rfl, by simp⟩
          · cases e1
            refine ⟨hl, ?_, by simp⟩
            simp [List.filterMap_map]
          · cases e1; exact ⟨hl, rfl, by simp⟩
        obtain ⟨k1, k2, k3⟩ := key
        obtain ⟨j1, j2, j3⟩ := ih k1 (fun j hj => hi j (by simp [hj])) e2
        refine ⟨j1, ?_, ?_⟩
        · rw [List.filterMap_append, k2, j2, ← List.filterMap_append]; rfl
        · intro l; simp only [List.mem_append, not_or]; exact ⟨⟨(k3 l).1, (j3 l).1⟩, ⟨(k3 l).2, (j3 l).2⟩⟩

/-- The loopback mode after the host or the air did something. -/
def modeAfter (i : In) : Nat :=
  match i with
  | .command l => match commandOf l with
    | some (0x0c03, _) => 0
    | some (0x1802, m :: _) => m
    | _ => 1
  | _ => 1

/-- C95. The local loopback mode ends only by Reset and by Write Loopback Mode, which then are executed, whatever else happens;
only a packet from the air can abort the controller meanwhile. The seven commands that it executes are not returned. -/
theorem C95_mode {c : Ctl} {i : In} (hl : c.loopback = 1) (hs : i.sane) :
    (∀ c' o, step c i = some (c', o) → c'.loopback = modeAfter i) ∧
    (step c i = none → ∃ l, i = .brAir l ∨ i = .leAir l) ∧
    ∀ l op ps, i = .command l → commandOf l = some (op, ps) →
      ∃ c' o, step c i = some (c', o) ∧ ((∃ e, .event e ∈ o) ↔ op ∉ [0x0c03, 0x0c31, 0x0c33, 0x0c35, 0x1005, 0x1801, 0x1802]) := by
  cases i with
  | acl l =>
    refine ⟨?_, ?_, by simp⟩
    · intro c' o hr
      simp only [step, handleAcl] at hr
      rcases parse_aclHandle hs with ⟨h1, h2⟩ | ⟨k, pb, data, h1, hk, h2⟩
      · rw [h2] at hr; cases hr; exact hl
      · rw [h2] at hr; simp only [if_pos hl] at hr; cases hr; exact hl
    · intro hr
      rw [C94_abort hs] at hr
      exact absurd hl hr.1
  | sco l =>
    refine ⟨?_, by simp [step], by simp⟩
    intro c' o hr
    simp only [step, handleSco] at hr
    rcases parse_scoHandle hs with ⟨h1, h2⟩ | ⟨k, st, data, h1, hk, h2⟩
    · rw [h2] at hr; cases hr; exact hl
    · rw [h2] at hr; simp only [if_pos hl] at hr; cases hr; exact hl
  | command l =>
    have hp := parse_commandOf hs
    refine ⟨?_, by simp [step], ?_⟩
    · intro c' o hr
      simp only [step, handleCommand, hp, modeAfter] at hr ⊢
      cases hc : commandOf l with
      | none => rw [hc] at hr; cases hr; exact hl
      | some x =>
        obtain ⟨op, ps⟩ := x
        rw [hc] at hr
        simp only [Option.map_some] at hr
        by_cases h1 : op = 0x0c03
        · subst h1
          rw [if_neg (fun h => absurd h.2 (by decide))] at hr
          cases hr; rfl
        · by_cases h2 : op = 0x1802
          · subst h2
            rw [if_neg (fun h => absurd h.2 (by decide))] at hr
            cases ps with
            | nil => cases hr; exact hl
            | cons m ps => cases hr; rfl
          · have hm : (match (some (op, ps) : Option (Nat × List Nat)) with | some (0x0c03, _) => 0 | some (0x1802, m :: _) => m | _ => 1) = 1 := by
              split
              · rename_i e; cases e; exact absurd rfl h1
              · rename_i e; cases e; exact absurd rfl h2
              · rfl
            rw [hm]
            split at hr
            · cases hr; exact hl
            · simp only [execute, if_neg h1, if_neg h2] at hr
              repeat' split at hr
              all_goals (cases hr; exact hl)
    · intro l' op ps e hc
      cases e
      rw [hc] at hp
      simp only [step, handleCommand, hp, Option.map_some]
      by_cases he : executed op = true
      · have hno : ¬ op ∉ [0x0c03, 0x0c31, 0x0c33, 0x0c35, 0x1005, 0x1801, 0x1802] := by
          simp only [executed, Bool.or_eq_true, beq_iff_eq] at he
          simp only [List.mem_cons, List.not_mem_nil, or_false, Decidable.not_not]
          omega
        rw [if_neg (by simp [he])]
        refine ⟨(execute c op ps).1, (execute c op ps).2, rfl, ?_⟩
        refine ⟨fun ⟨x, hx⟩ => ?_, fun h => absurd h hno⟩
        simp only [execute] at hx
        exfalso
        repeat' split at hx
        all_goals simp at hx
      · have hno : op ∉ [0x0c03, 0x0c31, 0x0c33, 0x0c35, 0x1005, 0x1801, 0x1802] := by
          simp only [executed, Bool.or_eq_true, beq_iff_eq] at he
          simp only [List.mem_cons, List.not_mem_nil, or_false]
          omega
        rw [if_pos ⟨hl, by simpa using he⟩]
        refine ⟨_, _, rfl, ?_⟩
        exact ⟨fun _ => hno, fun _ => ⟨_, List.mem_cons_self ..⟩⟩
  | brAir l =>
    refine ⟨?_, fun _ => ⟨l, .inl rfl⟩, by simp⟩
    intro c' o hr
    simp only [step, Option.map_eq_some_iff] at hr
    obtain ⟨o', -, h2⟩ := hr
    cases h2; exact hl
  | leAir l =>
    refine ⟨?_, fun _ => ⟨l, .inr rfl⟩, by simp⟩
    intro c' o hr
    simp only [step, Option.map_eq_some_iff] at hr
    obtain ⟨o', -, h2⟩ := hr
    cases h2; exact hl
  | links a s e =>
    refine ⟨?_, by simp [step], by simp⟩
    intro c' o hr; cases hr; exact hl
  | tick =>
    refine ⟨?_, by simp [step], by simp⟩
    intro c' o hr; cases hr; exact hl

example : (step { fresh 0xa1 with loopback := 1 } (.command (commandOctets 0x1802 [0]))).map (·.1.loopback) = some 0 ∧
    modeAfter (.command [2, 0x18, 1, 0]) = 0 := by decide +kernel

/-! ## From host to host -/

/-- C96. An ACL data packet of a BR/EDR connection is one packet on the air, with the addresses of the two devices, the boundary
flag and the data; at the other end it is one ACL data packet of the connection with the sender, with the same data; a first
fragment arrives as a flushable one, another flag as it is. A third device does not hand it to its host. -/
theorem C96_acl {s r : Ctl} {h k pb : Nat} {data : List Nat} (hf : AclFields h pb 0 data) (hl : s.loopback ≠ 1) (hh : h < 0x100)
    (hs : s.acl.find? (fun e => e.1 = h) = some (h, r.addr)) (hr : r.acl.find? (fun e => e.2 = s.addr) = some (k, s.addr)) (hk : k < 4096)
    (ha : s.addr < 2 ^ 48) (hb : r.addr < 2 ^ 48) :
    ∃ s' p, step s (.acl (aclOctets h pb 0 data)) = some (s', [.brAir p]) ∧
      p = [1] ++ addressOctets s.addr ++ addressOctets r.addr ++ ([pb, 0] ++ data) ∧
      step r (.brAir p) = some (r, [.acl (aclOctets k (if pb = 0 then 2 else pb) 0 data)]) ∧
      ∀ t : Ctl, t.addr ≠ r.addr → r.addr ≠ 0 → step t (.brAir p) = some (t, []) := by
  obtain ⟨f1, f2, f3, f4, f5⟩ := hf
  have hpl : Octets ([pb, 0] ++ data) := by
    refine octets_of_append ?_ f5
    intro x hx; simp only [List.mem_cons, List.not_mem_nil, or_false] at hx; omega
  have hw := write_airAcl (pb := pb) (bc := 0) ha hb (by omega) (by decide) f5
  have hra := read_air (t := 1) (by decide) ha hb hpl
  have hrd := read_airAcl (pb := pb) (bc := 0) ha hb (by omega) (by decide) f5
  refine ⟨{ s with brTasks := s.brTasks ++ [h] }, _, ?_, rfl, ?_, ?_⟩
  · simp only [step, handleAcl, read_acl ⟨f1, f2, f3, f4, f5⟩, if_neg hl, show isAclHandle h = true from decide_eq_true (by omega), if_true, brHandleAcl, ne_eq, not_true_eq_false, if_false, hs, hw]
  · have hpb : arriving pb < 4 := by simp only [arriving]; split <;> omega
    have hw' := write_acl (h := k) (pb := arriving pb) (bc := 0) (data := data) ⟨hk, hpb, by decide, f4, f5⟩
    simp only [step, brReceive, hra, if_true, hrd, hr, octetsOf_values, hw']
    rw [if_neg (by simp)]
    rfl
  · intro t ht h0
    simp only [step, brReceive, hra]
    rw [if_pos ⟨h0, fun e => ht e.symm⟩]
    rfl

/-- C96. The same for an LE connection; the addresses are those that the connection was made with. -/
theorem C96_le {s r : Ctl} {h k pb own peer : Nat} {data : List Nat} (hf : AclFields h pb 0 data) (hl : s.loopback ≠ 1) (hh : 0x200 ≤ h ∧ h < 0x300)
    (hs : s.le.find? (fun e => e.1 = h) = some (h, own, peer)) (hr : r.le.find? (fun e => e.2 = (peer, own)) = some (k, peer, own)) (hk : k < 4096)
    (ha : own < 2 ^ 48) (hb : peer < 2 ^ 48) :
    ∃ s' p, step s (.acl (aclOctets h pb 0 data)) = some (s', [.leAir p]) ∧
      p = [1] ++ addressOctets own ++ addressOctets peer ++ ([pb, 0] ++ data) ∧
      step r (.leAir p) = some (r, [.acl (aclOctets k (if pb = 0 then 2 else pb) 0 data)]) ∧
      ∀ t : Ctl, (∀ e ∈ t.le, e.2 ≠ (peer, own)) → step t (.leAir p) = some (t, []) := by
  obtain ⟨f1, f2, f3, f4, f5⟩ := hf
  have hpl : Octets ([pb, 0] ++ data) := by
    refine octets_of_append ?_ f5
    intro x hx; simp only [List.mem_cons, List.not_mem_nil, or_false] at hx; omega
  have hw := write_airAcl (pb := pb) (bc := 0) ha hb (by omega) (by decide) f5
  have hra := read_air (t := 1) (by decide) ha hb hpl
  have hrd := read_airAcl (pb := pb) (bc := 0) ha hb (by omega) (by decide) f5
  refine ⟨{ s with leTasks := s.leTasks ++ [h] }, _, ?_, rfl, ?_, ?_⟩
  · simp only [step, handleAcl, read_acl ⟨f1, f2, f3, f4, f5⟩, if_neg hl, show isAclHandle h = false from decide_eq_false (by omega),
      show isLeHandle h = true by simp only [isLeHandle, Bool.and_eq_true, decide_eq_true_eq]; omega, Bool.false_eq_true, if_true, leHandleAcl, ne_eq, not_true_eq_false, if_false, hs, hw]
  · have hpb : arriving pb < 4 := by simp only [arriving]; split <;> omega
    have hw' := write_acl (h := k) (pb := arriving pb) (bc := 0) (data := data) ⟨hk, hpb, by decide, f4, f5⟩
    simp only [step, leReceive, hra, if_true, hrd, hr, octetsOf_values, hw']
    rfl
  · intro t ht
    simp only [step, leReceive, hra, if_true]
    rw [List.find?_eq_none.2 (fun e he => by simpa using ht e he)]
    rfl

/-- C96. The same for synchronous data; the status is not transmitted. -/
theorem C96_sco {s r : Ctl} {h k st : Nat} {data : List Nat} (hf : ScoFields h st data) (hl : s.loopback ≠ 1)
    (hs : s.sco.find? (fun e => e.1 = h) = some (h, r.addr)) (hr : r.sco.find? (fun e => e.2 = s.addr) = some (k, s.addr)) (hk : k < 4096)
    (ha : s.addr < 2 ^ 48) (hb : r.addr < 2 ^ 48) :
    ∃ p, step s (.sco (scoOctets h st data)) = some (s, [.brAir p]) ∧
      p = [2] ++ addressOctets s.addr ++ addressOctets r.addr ++ data ∧
      step r (.brAir p) = some (r, [.sco (scoOctets k 0 data)]) ∧
      ∀ t : Ctl, t.addr ≠ r.addr → r.addr ≠ 0 → step t (.brAir p) = some (t, []) := by
  obtain ⟨f1, f2, f4, f5⟩ := hf
  have hw := write_airSco ha hb f5
  have hra := read_air (t := 2) (by decide) ha hb f5
  have hrd := read_airSco ha hb f5
  refine ⟨_, ?_, rfl, ?_, ?_⟩
  · simp only [step, handleSco, read_sco ⟨f1, f2, f4, f5⟩, if_neg hl, sendSco, hs, octetsOf_values, hw]
  · have hw' := write_sco (h := k) (st := 0) (data := data) ⟨hk, by decide, f4, f5⟩
    simp only [step, brReceive, hra, hrd, hr, hw']
    rw [if_neg (by simp), if_neg (by decide)]
    rfl
  · intro t ht h0
    simp only [step, brReceive, hra]
    rw [if_pos ⟨h0, fun e => ht e.symm⟩]
    rfl

example : (step ⟨0xa1, 0, false, [(5, 0xb2)], [(0x100, 0xb2)], [(0x200, 7, 8)], [], []⟩ (.acl [5, 0, 1, 0, 0x77])).map (·.2) =
      some [.brAir [1, 0xa1, 0, 0, 0, 0, 0, 0xb2, 0, 0, 0, 0, 0, 0, 0, 0x77]] ∧
    (step ⟨0xb2, 0, false, [(6, 0xa1)], [], [], [], []⟩ (.brAir [1, 0xa1, 0, 0, 0, 0, 0, 0xb2, 0, 0, 0, 0, 0, 0, 0, 0x77])).map (·.2) =
      some [.acl [6, 0x20, 1, 0, 0x77]] := by decide +kernel

/-- C96. A session: everything that is handed over for one BR/EDR connection arrives at the other host, in order, once, with the
same data. -/
theorem C96_session {r : Ctl} {h k : Nat} {ps : List (Nat × List Nat)} : ∀ {s : Ctl},
    (∀ p ∈ ps, AclFields h p.1 0 p.2) → s.loopback ≠ 1 → h < 0x100 →
    s.acl.find? (fun e => e.1 = h) = some (h, r.addr) → r.acl.find? (fun e => e.2 = s.addr) = some (k, s.addr) → k < 4096 →
    s.addr < 2 ^ 48 → r.addr < 2 ^ 48 →
    ∃ (s' : Ctl) (airs : List (List Nat)), run s (ps.map (fun p => .acl (aclOctets h p.1 0 p.2))) = some (s', airs.map .brAir) ∧
      run r (airs.map .brAir) = some (r, ps.map (fun p => .acl (aclOctets k (if p.1 = 0 then 2 else p.1) 0 p.2))) := by
  induction ps with
  | nil => intro s _ _ _ _ _ _ _ _; exact ⟨s, [], rfl, rfl⟩
  | cons p ps ih =>
    intro s hf hl hh hs hr hk ha hb
    obtain ⟨s1, a, e1, -, e2, -⟩ := C96_acl (hf p (by simp)) hl hh hs hr hk ha hb
    have hsame : s1.loopback = s.loopback ∧ s1.acl = s.acl ∧ s1.addr = s.addr := by
      simp only [step, handleAcl, read_acl (hf p (by simp)), if_neg hl, show isAclHandle h = true from decide_eq_true (by omega), if_true, brHandleAcl, ne_eq, not_true_eq_false, if_false, hs] at e1
      cases e1
      exact ⟨rfl, rfl, rfl⟩
    obtain ⟨s2, airs, e3, e4⟩ := ih (s := s1) (fun q hq => hf q (by simp [hq])) (by rw [hsame.1]; exact hl) hh (by rw [hsame.2.1]; exact hs)
      (by rw [hsame.2.2]; exact hr) hk (by rw [hsame.2.2]; exact ha) hb
    refine ⟨s2, a :: airs, ?_, ?_⟩
    · simp only [List.map_cons, run, e1, e3]; rfl
    · simp only [List.map_cons, run, e2, e4]; rfl

end Verif.Flow
