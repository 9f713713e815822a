import Verif.Ll.InitLemmas
import Verif.Ll.PropsSync
/-!
# C36: completed connection attempts, C37: packets of a connection
-/

namespace Verif.Ll
open Verif.Le

/-! ### C37 -/

/-- A packet between two addresses that are not connected changes nothing and is not
reported. -/
theorem C37_unknown_ignored {ah : Hash} {cfg : Config} {s : State} {rnd : Irk → Address} {now : Nat}
    {source destination : Address} {b : Body} (h : ¬ HasConnection s source destination) :
    step ah cfg s (.receive rnd now (.link source destination b)) = .ok (s, ⟨none, []⟩) := by
  have hn : Conn.firstWith (fun c : LeConn => c.address.address = source && c.own.address = destination)
      s.conns = none := by
    rw [Conn.firstWith_none]
    intro k c he
    simp only [Bool.and_eq_false_iff, decide_eq_false_iff_not]
    by_cases h1 : c.address.address = source
    · right; intro h2; exact h ⟨k, c, he, h1, h2⟩
    · exact .inl h1
  simp only [step, receive, incomingLink, hn, Res.bind_ok]

/-- What a packet does to the connection it belongs to. -/
def LinkEffect (s : State) (h : Nat) (b : Body) (s' : State) (out : List Out) : Prop :=
  match b with
  | .acl pb bc d => s' = s ∧ out = [.acl h (if pb = 0 then 2 else pb) bc d]
  | .disconnect reason =>
    s' = { s with conns := s.conns.filter (fun e => decide (e.1 ≠ h)), links := s.links.filter (fun l => decide (l ≠ h)) } ∧
    out = [.disconnected h reason]
  | .other t d => s' = s ∧ out = [.dispatched h t d]

/-- A packet between two connected addresses is processed for a connection between
them, and for no other: data goes to the host unaltered, a disconnection removes that
connection and nothing else. No such packet crashes the controller. -/
theorem C37_known_processed {ah : Hash} {cfg : Config} {s : State} (hs : Reachable ah cfg s)
    {rnd : Irk → Address} {now : Nat} {source destination : Address} (b : Body)
    (hc : HasConnection s source destination) :
    ∃ h c s' out, (h, c) ∈ s.conns ∧ c.address.address = source ∧ c.own.address = destination ∧
      step ah cfg s (.receive rnd now (.link source destination b)) = .ok (s', ⟨none, out⟩) ∧
      LinkEffect s h b s' out := by
  obtain ⟨h0, c0, hm, h1, h2⟩ := hc
  cases hf : Conn.firstWith (fun c : LeConn => c.address.address = source && c.own.address = destination) s.conns with
  | none =>
    rw [Conn.firstWith_none] at hf
    have := hf _ _ hm
    simp [h1, h2] at this
  | some e =>
    obtain ⟨h, c⟩ := e
    obtain ⟨g1, g2⟩ := Conn.firstWith_some _ _ _ _ hf
    simp only [Bool.and_eq_true, decide_eq_true_eq] at g2
    refine ⟨h, c, ?_⟩
    cases b with
    | acl pb bc d =>
      exact ⟨s, _, g1, g2.1, g2.2, by simp only [step, receive, incomingLink, hf, Res.bind_ok], rfl, rfl⟩
    | other t d =>
      exact ⟨s, _, g1, g2.1, g2.2, by simp only [step, receive, incomingLink, hf, Res.bind_ok], rfl, rfl⟩
    | disconnect reason =>
      have hl : s.links.contains h = true := by
        simp only [List.contains_iff_mem]
        exact ((connsOk_reachable hs).links h).mpr (List.mem_map.mpr ⟨_, g1, rfl⟩)
      exact ⟨_, _, g1, g2.1, g2.2,
        by simp only [step, receive, incomingLink, hf, removeConnection, if_pos hl, Res.bind_ok]; rfl, rfl, rfl⟩

/-- Handles identify connections: no two connections share one, at any point of any
history. -/
theorem C37_handles_unique {ah : Hash} {cfg : Config} {s : State} (hs : Reachable ah cfg s) :
    (s.conns.map (·.1)).Nodup ∧ ∀ e ∈ s.conns, 0x200 ≤ e.1 ∧ e.1 ≤ 0x2FF :=
  ⟨(connsOk_reachable hs).sound.nodup, fun e he =>
    (connsOk_reachable hs).sound.range e.1 (List.mem_map.mpr ⟨e, he, rfl⟩)⟩

/-- A connection exists only because the host was told: at every point of every
history, each connection was reported by an LE Connection Complete event, with its
handle. -/
theorem C37_connections_reported {ah : Hash} {cfg : Config} {a : Option Address} {ops : List Op}
    {s : State} {obs : List Obs} (h : run ah cfg ops (initial a) = .ok (s, obs))
    {k : Nat} {c : LeConn} (hc : (k, c) ∈ s.conns) : ∃ o ∈ obs, .connected k c ∈ o.out := by
  induction ops using List.reverseRecOn generalizing s obs with
  | nil => cases h; cases hc
  | append_singleton ops o ih =>
    obtain ⟨s1, obs1, x, h1, h2, hy⟩ := run_snoc h
    cases hy
    have old : (k, c) ∈ s1.conns → ∃ o ∈ obs1 ++ [x.2], .connected k c ∈ o.out := fun hm => by
      obtain ⟨o, ho, hm⟩ := ih h1 hm
      exact ⟨o, List.mem_append_left _ ho, hm⟩
    cases step_conn h2 with
    | same g1 => rw [g1] at hc; exact old hc
    | add k' c' last g1 g2 g3 g4 g5 =>
      rw [g2] at hc
      rcases List.mem_cons.mp hc with he | he
      · cases he
        refine ⟨x.2, by simp, ?_⟩
        have : (k, c) ∈ connectedOf x.2.out := by rw [g5]; simp
        obtain ⟨o, ho, he⟩ := List.mem_filterMap.mp this
        cases o <;> cases he
        exact ho
      · exact old he
    | remove k' g0 g1 => rw [g1] at hc; exact old (List.mem_of_mem_filter hc)
    | reset g1 => rw [g1] at hc; cases hc

/-! ### C36 -/

/-- **Partial.** Whenever LE Connection Complete is reported to an initiator, it is in
answer to a response, the response's addresses are in the event, and either this
controller has sent a connect request to the device it comes from, or this controller
has sent a connect request from the address it is directed to, or it is directed to
the empty address. Missing: both addresses must match, and the attempt must still be
pending; see the counterexamples. -/
theorem C36_completed_partial {ah : Hash} {cfg : Config} {a : Option Address} {ops : List Op} {o : Op}
    {s : State} {obs : List Obs} (h : run ah cfg ops (initial a) = .ok (s, obs))
    {x : State × Obs} (hx : step ah cfg s o = .ok x) {k : Nat} {c : LeConn}
    (hc : .connected k c ∈ x.2.out) (hr : c.role = .central) :
    (∃ rnd now, o = .receive rnd now (.connectComplete c.own c.address c.params)) ∧
    ((∃ e ∈ obs, ∃ own q, .send (.connect own c.address q) ∈ e.out) ∨
      (∃ e ∈ obs, ∃ own adv q, .send (.connect own adv q) ∈ e.out ∧ own.address = c.own.address) ∨
      c.own.address = 0) := by
  have inv : (∀ a, s.le.initiator.pendingConnectRequest = some a →
        ∃ e ∈ obs, ∃ own q, .send (.connect own a q) ∈ e.out) ∧
      (s.le.initiator.initiatingAddress ≠ 0 → ∃ e ∈ obs, ∃ own adv q,
        .send (.connect own adv q) ∈ e.out ∧ own.address = s.le.initiator.initiatingAddress) := by
    clear hx hc hr
    induction ops using List.reverseRecOn generalizing s obs with
    | nil => cases h; exact ⟨fun a ha => (by cases ha), fun hn => absurd rfl hn⟩
    | append_singleton ops o ih =>
      obtain ⟨s1, obs1, y, h1, h2, hy⟩ := run_snoc h
      cases hy
      obtain ⟨i1, i2⟩ := ih h1
      obtain ⟨j1, j2⟩ := step_init h2
      refine ⟨fun a ha => ?_, fun hn => ?_⟩
      · rcases j1 a ha with g | ⟨own, q, g⟩
        · obtain ⟨e, he, r⟩ := i1 a g
          exact ⟨e, List.mem_append_left _ he, r⟩
        · exact ⟨y.2, by simp, own, q, g⟩
      · rcases j2 hn with g | ⟨own, adv, q, g⟩
        · obtain ⟨e, he, r⟩ := i2 (by rw [← g]; exact hn)
          exact ⟨e, List.mem_append_left _ he, by rw [g]; exact r⟩
        · exact ⟨y.2, by simp, own, adv, q, g⟩
  have hm : (k, c) ∈ connectedOf x.2.out := List.mem_filterMap.mpr ⟨_, hc, rfl⟩
  cases step_conn hx with
  | same g1 g2 g3 g4 => rw [g4] at hm; cases hm
  | remove _ _ _ _ _ g4 => rw [g4] at hm; cases hm
  | reset _ g4 => rw [g4] at hm; cases hm
  | add k' c' last g1 g2 g3 g4 g5 g6 =>
    rw [g5] at hm
    simp only [List.mem_singleton, Prod.mk.injEq] at hm
    obtain ⟨rfl, rfl⟩ := hm
    rename_i rnd now p
    rcases g6 with ⟨-, g6⟩ | ⟨rfl, -⟩
    · rw [g6] at hr; cases hr
    refine ⟨⟨rnd, now, rfl⟩, ?_⟩
    simp only [step] at hx
    obtain ⟨y, hy, hx⟩ := Res.bind_eq_ok hx
    cases hx
    simp only [receive, incomingConnectComplete] at hy
    split at hy
    · cases hy; cases hc
    · rename_i hcond
      by_cases h1 : s.le.initiator.pendingConnectRequest = some c.address
      · exact .inl (inv.1 _ h1)
      · have h2 : s.le.initiator.initiatingAddress = c.own.address := by
          by_contra h2; exact hcond ⟨h1, h2⟩
        by_cases h0 : c.own.address = 0
        · exact .inr (.inr h0)
        · obtain ⟨e, he, own, adv, q, g, hg⟩ := inv.2 (by rw [h2]; exact h0)
          exact .inr (.inl ⟨e, he, own, adv, q, g, by rw [hg, h2]⟩)

/-- A response from the device that was addressed completes the attempt: the host is
told about the connection, with the addresses and parameters of the response, and the
attempt is over. -/
theorem C36_response_completes {ah : Hash} {cfg : Config} {s : State} (hs : Reachable ah cfg s)
    {rnd : Irk → Address} {now : Nat} {init adv : AddressWithType} {q : LinkParams}
    (hp : s.le.initiator.pendingConnectRequest = some adv) (hl : s.conns.length < 256) :
    ∃ h c x, step ah cfg s (.receive rnd now (.connectComplete init adv q)) = .ok x ∧
      connectedOf x.2.out = [(h, c)] ∧ c.address = adv ∧ c.own = init ∧ c.params = q ∧
      c.role = .central ∧ h ∉ s.conns.map (·.1) ∧ x.1.conns = (h, c) :: s.conns ∧
      x.1.le.initiator.enable = false ∧ x.1.le.initiator.pendingConnectRequest = none := by
  have hok := connsOk_reachable hs
  obtain ⟨z, hz⟩ := handleConnection_ok (hok.with_le (resolveUpdate ah s.le adv)) hl
    ⟨adv, init, if isRpa adv then (resolvePrivate ah s.le adv).getD ⟨0, .publicDevice⟩ else ⟨0, .publicDevice⟩, .central, q⟩
    s.le.extendedInUse
  obtain ⟨last, h1, -, -, h2, h3, h4, -, -, h5⟩ := handleConnection_cases hz
  obtain ⟨g1, -⟩ := Conn.unused_some _ _ _ _ hok.last.1 hok.last.2 _ _ h1
  have hcond : ¬ (s.le.initiator.pendingConnectRequest ≠ some adv ∧
      s.le.initiator.initiatingAddress ≠ init.address) := fun hx => hx.1 hp
  refine ⟨z.1, ⟨adv, init, if isRpa adv then (resolvePrivate ah s.le adv).getD ⟨0, .publicDevice⟩ else ⟨0, .publicDevice⟩, .central, q⟩,
    ({ z.2.1 with le := { z.2.1.le with initiator := { z.2.1.le.initiator with pendingConnectRequest := none, enable := false } } }, ⟨none, z.2.2⟩),
    ?_, ?_, rfl, rfl, rfl, rfl, g1, h2, rfl, rfl⟩
  · simp only [step, receive, incomingConnectComplete]
    rw [if_neg hcond, hz]
    rfl
  · simp only [h5]
    cases s.le.extendedInUse <;> rfl

/-! ### The counterexamples -/

/-- The default configuration, as a central. -/
def someRnd : Irk → Address := fun _ => 0
def centralAddress : AddressWithType := ⟨Config.default.publicAddress, .publicDevice⟩
def advertiserA : AddressWithType := ⟨0xA, .publicDevice⟩
def advertiserB : AddressWithType := ⟨0xB, .publicDevice⟩
def someParams : LinkParams := ⟨24, 0, 100⟩

/-- Start connecting to device A, which is advertising: the request is sent. -/
def attempt : List Op :=
  [.cmd (.createConnection someRnd .usePeerAddress advertiserA .pub ⟨0x10, 0x10, 0x18, 0x28, 0, 0x64, 0, 0⟩),
   .receive someRnd 0 (.legacyAdv ⟨advertiserA, ⟨0, .publicDevice⟩, .advInd, []⟩)]

/-- The connections reported to the host at the end of a run. -/
def completedAt (o : Op) (ops : List Op) : List (Nat × LeConn) :=
  match run (fun _ _ => 0) Config.default (ops ++ [o]) (initial none) with
  | .ok (_, obs) => connectedOf ((obs.getLast?.map (·.out)).getD [])
  | _ => []

/-- The request is sent, and the answer completes the attempt. -/
example :
    (∃ s, run (fun _ _ => 0) Config.default attempt (initial none) =
      .ok (s, [⟨some .success, []⟩, ⟨none, [.send (.connect centralAddress advertiserA (requestParams s.le))]⟩])) ∧
    completedAt (.receive someRnd 0 (.connectComplete centralAddress advertiserA someParams)) attempt =
      [(0x200, ⟨advertiserA, centralAddress, ⟨0, .publicDevice⟩, .central, someParams⟩)] :=
  ⟨⟨_, rfl⟩, by decide +kernel⟩

/-- **Counterexample.** After a successful LE Create Connection Cancel, a response
still creates a connection. -/
theorem C36_after_cancel_violated :
    (∃ s obs, run (fun _ _ => 0) Config.default (attempt ++ [.cmd .createConnectionCancel]) (initial none) =
      .ok (s, obs) ∧ obs.getLast? = some ⟨some .success, []⟩) ∧
    completedAt (.receive someRnd 0 (.connectComplete centralAddress advertiserA someParams))
      (attempt ++ [.cmd .createConnectionCancel]) =
      [(0x200, ⟨advertiserA, centralAddress, ⟨0, .publicDevice⟩, .central, someParams⟩)] :=
  ⟨⟨_, _, rfl, rfl⟩, by decide +kernel⟩

/-- **Counterexample.** A response from another device than the one addressed creates
a connection to that other device. -/
theorem C36_other_device_violated :
    completedAt (.receive someRnd 0 (.connectComplete centralAddress advertiserB someParams)) attempt =
      [(0x200, ⟨advertiserB, centralAddress, ⟨0, .publicDevice⟩, .central, someParams⟩)] := by
  decide +kernel

/-- **Counterexample.** A response to another initiator completes this controller's
attempt: the connection has an own address that is not this controller's. -/
theorem C36_other_initiator_violated :
    completedAt (.receive someRnd 0 (.connectComplete ⟨0xC, .publicDevice⟩ advertiserA someParams)) attempt =
      [(0x200, ⟨advertiserA, ⟨0xC, .publicDevice⟩, ⟨0, .publicDevice⟩, .central, someParams⟩)] := by
  decide +kernel

/-- **Counterexample.** Without any attempt, a response directed to the empty address
creates a connection. -/
theorem C36_no_attempt_violated :
    completedAt (.receive someRnd 0 (.connectComplete ⟨0, .publicDevice⟩ advertiserA someParams)) [] =
      [(0x200, ⟨advertiserA, ⟨0, .publicDevice⟩, ⟨0, .publicDevice⟩, .central, someParams⟩)] := by
  decide +kernel

/-- The connections and outputs of a run. -/
def seen (ops : List Op) : Conn.Table LeConn × List (List Out) :=
  match run (fun _ _ => 0) Config.default ops (initial none) with
  | .ok (s, obs) => (s.conns, obs.map (·.out))
  | _ => ([], [])

/-- C37 has its hypotheses met: a connection exists after the answer, and data between
the two addresses is delivered. -/
example :
    (seen (attempt ++ [.receive someRnd 0 (.connectComplete centralAddress advertiserA someParams)])).1 =
      [(0x200, ⟨advertiserA, centralAddress, ⟨0, .publicDevice⟩, .central, someParams⟩)] ∧
    (seen (attempt ++ [.receive someRnd 0 (.connectComplete centralAddress advertiserA someParams),
        .receive someRnd 0 (.link advertiserA.address centralAddress.address (.acl 2 0 [1, 2, 3])),
        .receive someRnd 0 (.link advertiserB.address centralAddress.address (.acl 2 0 [4, 5, 6]))])).2.drop 3 =
      [[.acl 0x200 2 0 [1, 2, 3]], []] := by
  decide +kernel

end Verif.Ll
