import Verif.Iso.PendingLemmas
import Verif.Iso.PropsHandles
/-!
# C29: creation of connected isochronous streams

The specification is in `Verif/Iso/SpecCreate.lean`: it counts, over an observed history, how many times the host
asked for a CIS and how many CIS Established and Disconnection Complete events it received for it.
-/

namespace Verif.Iso

open Verif.Le

theorem trace_inv {tr : List (Op × List Out)} {s : State} (h : Trace {} tr s) : Inv s := by
  induction h with
  | nil => exact inv_init
  | snoc _ hstep ih => exact step_inv ih hstep

theorem TraceOf.trace {P : State → Op → Prop} {s s' : State} {tr : List (Op × List Out)} (h : TraceOf P s tr s') :
    Trace s tr s' := by
  induction h with
  | nil => exact .nil _
  | snoc _ _ hstep ih => exact .snoc ih hstep

theorem TraceOf.mono {P Q : State → Op → Prop} (hpq : ∀ s op, P s op → Q s op) {s s' : State}
    {tr : List (Op × List Out)} (h : TraceOf P s tr s') : TraceOf Q s tr s' := by
  induction h with
  | nil => exact .nil _
  | snoc _ hp hstep ih => exact .snoc ih (hpq _ _ hp) hstep

/-- A history of `run` is a trace. -/
theorem trace_of_run {s₀ : State} (ops : List (Env × Op)) : ∀ {s s' : State} {tr : List (Op × List Out)} {outs : List Out},
    Trace s₀ tr s → run s ops = .ok (s', outs) → ∃ tr', Trace s₀ (tr ++ tr') s' := by
  induction ops with
  | nil => intro s s' tr outs ht h; cases h; exact ⟨[], by rwa [List.append_nil]⟩
  | cons x ops ih =>
    intro s s' tr outs ht h
    obtain ⟨env, op⟩ := x
    simp only [run] at h
    split at h
    · cases h
    · rename_i s1 o1 h1
      split at h
      · cases h
      · rename_i h2
        cases h
        obtain ⟨tr', ht'⟩ := ih (.snoc ht h1) h2
        exact ⟨(op, o1) :: tr', by simpa using ht'⟩

theorem queue_init : Queue {} := ⟨List.nodup_nil, nofun⟩

theorem queue_traceOf {tr : List (Op × List Out)} {s : State} (h : TraceOf KeepsQueued {} tr s) : Queue s := by
  induction h with
  | nil => exact queue_init
  | snoc ht hp hstep ih =>
    exact (step_stepOk (trace_inv ht.trace) hstep).queue ih hp

/-- Nothing is reported that was not asked for: for every CIS, the host receives at most as many CIS Established
events as it made requests, whatever the peers do. -/
theorem C29_no_spurious {tr : List (Op × List Out)} {s : State} (ht : Trace {} tr s) (h : Nat) :
    totalEstablished h tr + outstanding s h ≤ totalAsked h tr := by
  induction ht with
  | nil => exact Nat.le_refl _
  | snoc ht hstep ih =>
    have h1 := ((step_stepOk (trace_inv ht) hstep).balance h).le
    have h2 := ih
    simp only [totalEstablished, totalAsked, List.map_append, List.map_cons, List.map_nil, List.sum_append,
      List.sum_cons, List.sum_nil] at h2 ⊢
    omega

/-- Nothing that was asked for is forgotten, as long as no CIS is removed while a request for it is queued: for every
CIS, every request was answered by a CIS Established event or by a Disconnection Complete event, or is still queued, or
waits for the peer. The requests never fail to be answered because of a lost queue entry or state. -/
theorem C29_answered_partial {tr : List (Op × List Out)} {s : State} (ht : TraceOf KeepsQueued {} tr s) (h : Nat) :
    totalAsked h tr ≤ totalEstablished h tr + totalDisconnected h tr + outstanding s h := by
  induction ht with
  | nil => exact Nat.le_refl _
  | snoc ht hp hstep ih =>
    have h1 := ((step_stepOk (trace_inv ht.trace) hstep).balance h).ge (queue_traceOf ht) hp
    have h2 := ih
    simp only [totalEstablished, totalAsked, totalDisconnected, List.map_append, List.map_cons, List.map_nil,
      List.sum_append, List.sum_cons, List.sum_nil] at h2 ⊢
    omega

/-- When nothing is outstanding, the numbers agree: exactly one CIS Established event for each request of a CIS that
was never disconnected. -/
theorem C29_exactly_one_partial {tr : List (Op × List Out)} {s : State} (ht : TraceOf KeepsQueued {} tr s) (h : Nat)
    (hd : totalDisconnected h tr = 0) (ho : outstanding s h = 0) : totalEstablished h tr = totalAsked h tr := by
  have h1 := C29_no_spurious ht.trace h
  have h2 := C29_answered_partial ht h
  omega

/-- Requests are sent one at a time and in the order of the host's list: an operation sends at most one LL_CIS_REQ,
and it is the one for the first CIS that is queued, which for an accepted LE Create CIS command is the first of the
command. -/
theorem C29_in_order {env : Env} {s s' : State} {op : Op} {outs : List Out} (hr : Reachable s)
    (h : step env s op = .ok (s', outs)) :
    outs.countP Out.isCisReq ≤ 1 ∧
    ∀ acl q, .llcp acl (.cisReq q) ∈ outs → ∃ r : CisRequest, r.acl = acl ∧ q.cigId = r.cigId ∧ q.cisId = r.cisId ∧
      (s.requests = r :: s'.requests ∨ (s.requests = [] ∧ ∃ cs, op = .hci (.createCis cs) ∧
        (r :: s'.requests).map (fun r => (r.handle, r.acl)) = cs)) := by
  have hnone : ∀ {o : List Out} {acl q}, o.countP Out.isCisReq = 0 → .llcp acl (.cisReq q) ∈ o → False := by
    intro o acl q hz hm
    exact List.countP_eq_zero.1 hz _ hm rfl
  cases ho : op.starts with
  | false =>
    have h1 := (step_waits (reachable_inv hr) ho h).2.2
    exact ⟨by omega, fun acl q hm => (hnone h1 hm).elim⟩
  | true =>
    rcases start_waits ho h with ⟨-, hz, -⟩ | ⟨s1, s2, o1, o2, o3, rfl, hz1, hz3, hd, rfl, hcase⟩
    · exact ⟨by omega, fun acl q hm => (hnone hz hm).elim⟩
    · rw [List.countP_append, List.countP_append, hz1, hz3]
      rcases dequeue_waits hd with ⟨-, -, rfl⟩ | ⟨r, q', hreq, rfl, h1, h2, -⟩
      · refine ⟨by simp, fun acl q hm => ?_⟩
        simp only [List.mem_append, List.not_mem_nil, or_false] at hm
        rcases hm with hm | hm
        · exact (hnone hz1 hm).elim
        · exact (hnone hz3 hm).elim
      · refine ⟨by simp [Out.isCisReq], fun acl q hm => ?_⟩
        simp only [List.mem_append, List.mem_singleton] at hm
        rcases hm with (hm | hm) | hm
        · exact (hnone hz1 hm).elim
        · cases hm
          refine ⟨r, rfl, h1, h2, ?_⟩
          rcases hcase with ⟨cs, rs, rfl, he, h3, -, h4, -⟩ | ⟨c, -, -, -, h3, -⟩
          · right
            refine ⟨he, cs, rfl, ?_⟩
            rw [← hreq, h3, h4]
          · left
            rw [← h3, hreq]
        · exact (hnone hz3 hm).elim

/-- The host does not give a further LE Create CIS command while a peer has not answered. -/
def OneAtATime (s : State) : Op → Prop
  | .hci (.createCis _) => ∀ c ∈ s.cises, c.state ≠ .pendingRsp
  | _ => True

/-- At most one CIS waits for the response of the peer, if the host waits for the end of a LE Create CIS command
before it gives the next one. -/
theorem C29_one_at_a_time_partial {tr : List (Op × List Out)} {s : State} (ht : TraceOf OneAtATime {} tr s) :
    ∀ c ∈ s.cises, ∀ c' ∈ s.cises, c.state = .pendingRsp → c'.state = .pendingRsp → c = c' := by
  have key : ∀ x y, Waits s.cises x → Waits s.cises y → x = y := by
    induction ht with
    | nil => rintro x y ⟨c, hc, -⟩; cases hc
    | @snoc s1 s2 tr env op outs ht hp hstep ih =>
      cases ho : op.starts with
      | false =>
        have h1 := (step_waits (trace_inv ht.trace) ho hstep).1.1
        exact fun x y hx hy => ih x y (h1 x hx) (h1 y hy)
      | true =>
        rcases start_waits ho hstep with ⟨rfl, -⟩ | ⟨sa, sb, o1, o2, o3, -, -, -, hd, rfl, hcase⟩
        · exact ih
        · have hwait : (∃ c, ∀ x, Waits sa.cises x → Waits s1.cises x ∧ x ≠ c ∧ Waits s1.cises c) ∨ ∀ x, ¬ Waits sa.cises x := by
            rcases hcase with ⟨cs, rs, rfl, -, -, h3, -⟩ | ⟨c, hm, hst, -, -, -, -, h3⟩
            · right
              rw [h3]
              rintro x ⟨c, hc, -, hst⟩
              exact hp c hc hst
            · left
              exact ⟨c.handle, fun x hx => ⟨((h3 x).1 hx).1, ((h3 x).1 hx).2, c, hm, rfl, hst⟩⟩
          have hno : ∀ x, ¬ Waits sa.cises x := by
            rcases hwait with ⟨c, hc⟩ | hc
            · intro x hx
              obtain ⟨h1, h2, h3⟩ := hc x hx
              exact h2 (ih x c h1 h3)
            · exact hc
          rcases dequeue_waits hd with ⟨-, rfl, -⟩ | ⟨r, q, -, -, -, -, -, h2, -⟩
          · exact fun x y hx => absurd hx (hno x)
          · intro x y hx hy
            have hx := (h2 x hx).resolve_right (hno x)
            have hy := (h2 y hy).resolve_right (hno y)
            rw [hx, hy]
  intro c hc c' hc' hst hst'
  exact eq_of_handle (trace_inv ht.trace).ids hc hc' (key _ _ ⟨c, hc, rfl, hst⟩ ⟨c', hc', rfl, hst'⟩)

/-- A queue is never stuck, if no CIS that waits for its peer is ended in another way than by the peer's answer: while
a request is queued some CIS waits for the response of the peer, and this response starts the first queued request. -/
theorem C29_progress_partial {tr : List (Op × List Out)} {s : State} (ht : TraceOf KeepsPending {} tr s)
    (hq : s.requests ≠ []) : ∃ c ∈ s.cises, c.state = .pendingRsp := by
  have key : s.requests ≠ [] → ∃ x, Waits s.cises x := by
    clear hq
    induction ht with
    | nil => exact fun h => absurd rfl h
    | @snoc s1 s2 tr env op outs ht hp hstep ih =>
      intro hne
      cases ho : op.starts with
      | false =>
        obtain ⟨h1, h2, -⟩ := step_waits (trace_inv ht.trace) ho hstep
        have : s1.requests ≠ [] := fun e => hne (by rw [e] at h2; exact List.sublist_nil.1 h2)
        obtain ⟨x, hx⟩ := ih this
        exact ⟨x, h1.2 hp x hx⟩
      | true =>
        rcases start_waits ho hstep with ⟨rfl, -⟩ | ⟨sa, sb, o1, o2, o3, -, -, -, hd, rfl, -⟩
        · exact ih hne
        · rcases dequeue_waits hd with ⟨h1, rfl, -⟩ | ⟨r, q, -, -, -, -, h1, -⟩
          · exact absurd h1 hne
          · exact ⟨r.handle, h1⟩
  obtain ⟨x, c, hc, -, hst⟩ := key hq
  exact ⟨c, hc, hst⟩

/-- The answer of the peer: unless the link layer aborts, it ends the procedure of the CIS with an Established event
and starts the first queued request, which leaves the queue. -/
theorem C29_answer_starts_next {env : Env} {s s' : State} {acl : Nat} {p : Pdu} {outs : List Out}
    (hw : ∃ c ∈ s.cises, c.role = .central ∧ c.acl = some acl ∧ c.state = .pendingRsp)
    (hp : p = .cisRsp ∨ ∃ e, p = .rejectExtInd opcodeCisReq e)
    (h : step env s (.llcp acl p) = .ok (s', outs)) :
    (∃ c ∈ s.cises, c.role = .central ∧ c.acl = some acl ∧ c.state = .pendingRsp ∧
      0 < outs.countP (Out.establishes c.handle)) ∧
    s'.requests = s.requests.tail ∧
    ∀ r ∈ s.requests.head?, ∃ q, .llcp r.acl (.cisReq q) ∈ outs ∧ q.cigId = r.cigId ∧ q.cisId = r.cisId ∧
      ∃ c ∈ s'.cises, c.handle = r.handle ∧ c.state = .pendingRsp := by
  have ho : (Op.llcp acl p).starts = true := by rcases hp with rfl | ⟨e, rfl⟩ <;> rfl
  rcases start_waits ho h with ⟨-, -, hz⟩ | ⟨s1, s2, o1, o2, o3, rfl, hz1, hz3, hd, rfl, hcase⟩
  · exfalso
    obtain ⟨c, hc, h1, h2, h3⟩ := hw
    have hsome : (awaitingRsp s acl).isSome := by
      unfold awaitingRsp
      rw [List.find?_isSome]
      exact ⟨c, hc, by simp [h1, h2, h3]⟩
    obtain ⟨c', hc'⟩ := Option.isSome_iff_exists.1 hsome
    rcases hp with rfl | ⟨e, rfl⟩
    · simp only [step, runPdu, cisRsp, hc'] at h
      split at h
      · cases h
      · split at h
        · cases h
        · rename_i e he
          split at h
          · cases h
          · obtain ⟨rfl, rfl⟩ := send_ok h
            have := hz c'.handle
            rw [List.countP_append, ← (centralEvent_handle he).1] at this
            simp [Out.establishes] at this
    · simp only [step, runPdu, rejectExtInd, hc'] at h
      split at h
      · cases h
      · split at h
        · cases h
        · cases h
          have := hz c'.handle
          rw [List.countP_cons] at this
          have hx : Out.establishes c'.handle (.event (.cisEstablished (.failed remoteUserTerminated c'.handle))) = true := by
            show decide (c'.handle = c'.handle) = true
            simp
          rw [hx] at this
          simp at this
  · rcases hcase with ⟨cs, rs, hop, -⟩ | ⟨c, hm, hst, hrole, hreq, ⟨acl', hacl, p', hop⟩, hest, -⟩
    · cases hop
    · cases hop
      refine ⟨⟨c, hm, hrole, hacl, hst, hest⟩, ?_⟩
      rcases dequeue_waits hd with ⟨h1, rfl, rfl⟩ | ⟨r, q, h1, rfl, h2, h3, ⟨c', hc', h4, h5⟩, -⟩
      · rw [← hreq, h1]
        exact ⟨rfl, nofun⟩
      · rw [← hreq, h1]
        refine ⟨rfl, fun x hx => ?_⟩
        cases hx
        exact ⟨q, by simp, h2, h3, c', hc', h4, h5⟩

/-! ## Non-vacuity and violations -/

/-- A host that creates two CISes; the peer rejects the first and accepts the second. -/
def createHistory : List (Env × Op) :=
  [(fullEnv, .addLink 0x10 .central), (fullEnv, .hci exampleCig),
    (fullEnv, .hci (.createCis [(0xE00, 0x10), (0xE01, 0x10)]))]

example : (stateAfter createHistory).requests.map (·.handle) = [0xE01] ∧
    (stateAfter createHistory).cises.map (·.state) = [.pendingRsp, .configuration] := by decide +kernel

example : (stateAfter (createHistory ++ [(fullEnv, .llcp 0x10 (.rejectExtInd opcodeCisReq 0x3b))])).requests = [] ∧
    (stateAfter (createHistory ++ [(fullEnv, .llcp 0x10 (.rejectExtInd opcodeCisReq 0x3b))])).cises.map (·.state) =
      [.configuration, .pendingRsp] := by decide +kernel

example : (stateAfter (createHistory ++ [(fullEnv, .llcp 0x10 (.rejectExtInd opcodeCisReq 0x3b)),
    (fullEnv, .llcp 0x10 .cisRsp)])).cises.map (·.state) = [.configuration, .connected] := by decide +kernel

/-- The hypotheses of the theorems about histories are met by a history in which the first CIS of a command is refused
by the peer and the second is established; both requests are answered. -/
example : ∃ tr s, TraceOf (fun s op => KeepsQueued s op ∧ KeepsPending s op ∧ OneAtATime s op) {} tr s ∧
    totalAsked 0xE00 tr = 1 ∧ totalEstablished 0xE00 tr = 1 ∧ totalAsked 0xE01 tr = 1 ∧
    totalEstablished 0xE01 tr = 1 ∧ totalDisconnected 0xE00 tr = 0 ∧ totalDisconnected 0xE01 tr = 0 ∧
    outstanding s 0xE00 = 0 ∧ outstanding s 0xE01 = 0 := by
  refine ⟨_, _, .snoc (env := fullEnv) (op := .llcp 0x10 .cisRsp)
    (.snoc (env := fullEnv) (op := .llcp 0x10 (.rejectExtInd opcodeCisReq 0x3b))
      (.snoc (env := fullEnv) (op := .hci (.createCis [(0xE00, 0x10), (0xE01, 0x10)]))
        (.snoc (env := fullEnv) (op := .hci exampleCig)
          (.snoc (env := fullEnv) (op := .addLink 0x10 .central) (.nil _) ⟨trivial, trivial, trivial⟩ rfl)
          ⟨trivial, trivial, trivial⟩ rfl) ⟨trivial, trivial, ?_⟩ rfl) ⟨trivial, trivial, trivial⟩ rfl)
    ⟨trivial, trivial, trivial⟩ rfl, ?_⟩
  · intro c hc
    simp only [List.nil_append, List.cons_append, List.mem_cons, List.not_mem_nil, or_false] at hc
    rcases hc with rfl | rfl <;> exact nofun
  · decide +kernel

/-- The queue may be stuck: the host disconnects the CIS that waits for its peer. The second CIS of the LE Create CIS
command is still queued, but nothing waits for a peer any more; the peer's late answer changes nothing. -/
theorem C29_stuck_violated : ∃ s : State, Reachable s ∧ s.requests.map (·.handle) = [0xE01] ∧
    (∀ c ∈ s.cises, c.state = .configuration) ∧
    ∀ (env : Env) (acl : Nat) (p : Pdu), p = .cisRsp ∨ (∃ e, p = .rejectExtInd opcodeCisReq e) ∨
        (∃ a b, p = .cisInd a b) → step env s (.llcp acl p) = .ok (s, []) := by
  refine ⟨stateAfter (createHistory ++ [(fullEnv, .hci (.disconnect 0xE00 0x13))]), stateAfter_reachable _,
    by decide +kernel, ?_⟩
  have hall : ∀ c ∈ (stateAfter (createHistory ++ [(fullEnv, .hci (.disconnect 0xE00 0x13))])).cises,
      c.state = .configuration := by decide +kernel
  refine ⟨hall, ?_⟩
  generalize stateAfter (createHistory ++ [(fullEnv, .hci (.disconnect 0xE00 0x13))]) = s at hall
  intro env acl p hp
  have h1 : awaitingRsp s acl = none := by
    unfold awaitingRsp
    rw [List.find?_eq_none]
    intro c hc
    simp [hall c hc]
  have h2 : awaitingInd s acl = none := by
    unfold awaitingInd
    rw [List.find?_eq_none]
    intro c hc
    simp [hall c hc]
  rcases hp with rfl | ⟨e, rfl⟩ | ⟨a, b, rfl⟩
  · simp only [step, runPdu, cisRsp, h1]
  · simp only [step, runPdu, rejectExtInd, h1]
    rw [if_neg (by simp)]
  · simp only [step, runPdu, cisInd, h2]

/-- Two requests may be under way at the same time: a LE Create CIS command is accepted while the peer has not
answered the only request of the previous one. -/
theorem C29_one_at_a_time_violated : ∃ s : State, Reachable s ∧
    s.cises.map (fun c => (c.handle, c.state)) = [(0xE00, .pendingRsp), (0xE01, .pendingRsp)] :=
  ⟨stateAfter [(fullEnv, .addLink 0x10 .central), (fullEnv, .hci exampleCig),
    (fullEnv, .hci (.createCis [(0xE00, 0x10)])), (fullEnv, .hci (.createCis [(0xE01, 0x10)]))],
    stateAfter_reachable _, by decide +kernel⟩

/-- A CIG may be removed while a request for one of its CISes is queued: after that, the answer of the peer to the
request before it aborts the controller. -/
theorem C29_remove_queued_violated : ∃ s s' : State, Reachable s ∧ s.requests.map (·.handle) = [0xE00] ∧
    step fullEnv s (.hci (.removeCig 3)) = .ok (s', [.event (.removeCigComplete success 3)]) ∧
    step fullEnv s' (.llcp 0x10 .cisRsp) = .error .panic := by
  refine ⟨stateAfter [(fullEnv, .addLink 0x10 .central), (fullEnv, .hci exampleCig),
    (fullEnv, .hci (.setCig 4 10000 10000 false 20 20 [⟨1, { maxSduC := 100, maxSduP := 50, phyC := 1, phyP := 1 }⟩])),
    (fullEnv, .hci (.createCis [(0xE02, 0x10), (0xE00, 0x10)]))], _, stateAfter_reachable _, by decide +kernel, rfl, rfl⟩

end Verif.Iso
