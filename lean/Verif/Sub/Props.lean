import Verif.Sub.LinkLemmas
/-!
# C24 and C59: the timing of a connection

C24: a subrate request or indication is accepted only if its parameters are mutually consistent, and no
PDU of a peer can abort the controller.

C59: the two ends of a connection agree on its timing once nothing is on its way, and it is legal. -/
namespace Verif.Sub

/-! ## C24: the command -/

/-- A subrate request the controller accepts has its parameters in range and makes a legal timing with the
interval of the connection. At a central the connection gets this timing, the host and the peer are told;
at a peripheral nothing changes and the peer is asked. -/
theorem C24_request_legal (e : End) (min max latency cont timeout : Nat) (e' : End) (p : List Pdu) (v : List Ev)
    (h : command e (.subrateRequest min max latency cont timeout) = .ok .success e' p v) :
    InRange min max latency cont timeout ∧ Legal ⟨e.timing.interval, max, cont, latency, timeout⟩ ∧
      (e.role = .central → e'.timing = ⟨e.timing.interval, max, cont, latency, timeout⟩ ∧
        p = [.subrateInd .success max latency cont timeout] ∧ v = [.subrateChange .success max latency cont timeout]) ∧
      (e.role = .peripheral → e' = e ∧ p = [.subrateReq min max latency cont timeout] ∧ v = []) := by
  have h : subrateRequest e min max latency cont timeout = .ok .success e' p v := h
  obtain ⟨h1, h2, h3, h4, h5⟩ := subrateRequest_success h
  refine ⟨h1, subrateRequest_legal h, ?_, ?_⟩
  · intro hr
    rcases h5 with ⟨_, rfl, rfl, rfl⟩ | ⟨hr', _⟩
    · exact ⟨rfl, rfl, rfl⟩
    · simp [hr] at hr'
  · intro hr
    rcases h5 with ⟨hr', _⟩ | ⟨_, rfl, rfl, rfl⟩
    · simp [hr] at hr'
    · exact ⟨rfl, rfl, rfl⟩

/-- A request that is not accepted changes nothing and sends nothing, and no request fails. -/
theorem C24_request_rejected (e : End) (min max latency cont timeout : Nat) (hi : e.timing.interval < 65536) :
    ∃ s e' p v, command e (.subrateRequest min max latency cont timeout) = .ok s e' p v ∧
      (s ≠ .success → e' = e ∧ p = [] ∧ v = []) := by
  rcases subrateRequest_cases e min max latency cont timeout hi with ⟨s, h, _⟩ | ⟨e', p, v, h⟩
  · exact ⟨s, e, [], [], h, fun _ => ⟨rfl, rfl, rfl⟩⟩
  · exact ⟨.success, e', p, v, h, fun hs => absurd rfl hs⟩

/-- A central on a connection of 30 ms asks for every fourth event and a timeout of 5 s. -/
def exampleCentral : End := ⟨.central, .initial 24 0 500, ⟨1, 10, 1, 0, 600⟩, true⟩

example : command exampleCentral (.subrateRequest 1 4 0 1 500) =
    .ok .success { exampleCentral with timing := ⟨24, 4, 1, 0, 500⟩, accept := ⟨1, 4, 0, 1, 500⟩ }
      [.subrateInd .success 4 0 1 500] [.subrateChange .success 4 0 1 500] := by decide +kernel

/-- The interval is compared with the timeout without regard to their units: a request with legal
parameters is turned down if its timeout is less than eight times what is required. Here the connection
interval is 30 ms, every 20th event is used, and the timeout is 2 s. -/
theorem C24_legal_request_violated :
    InRange 1 20 0 0 200 ∧ Legal ⟨24, 20, 0, 0, 200⟩ ∧
      command exampleCentral (.subrateRequest 1 20 0 0 200) = .ok .invalidParameters exampleCentral [] [] := by
  decide +kernel

/-! ## C24: the defaults -/

/-- A default the controller accepts has each of its parameters in range, and is what connections made
later accept; any other is refused and changes nothing. -/
theorem C24_default (cur : Accept) (min max latency cont timeout : Nat) :
    (setDefaultSubrate cur min max latency cont timeout = (.success, ⟨min, max, latency, cont, timeout⟩) ∧
      InRange min max latency cont timeout) ∨
    (setDefaultSubrate cur min max latency cont timeout = (.unsupportedValue, cur) ∧
      ¬InRange min max latency cont timeout) := by
  unfold InRange
  generalize hres : setDefaultSubrate cur min max latency cont timeout = res
  simp only [setDefaultSubrate] at hres
  rcases ite_split hres with ⟨_, h⟩ | ⟨_, hres⟩; · exact .inr ⟨h.symm, by omega⟩
  rcases ite_split hres with ⟨_, h⟩ | ⟨_, hres⟩; · exact .inr ⟨h.symm, by omega⟩
  rcases ite_split hres with ⟨_, h⟩ | ⟨_, hres⟩; · exact .inr ⟨h.symm, by omega⟩
  rcases ite_split hres with ⟨_, h⟩ | ⟨_, hres⟩; · exact .inr ⟨h.symm, by omega⟩
  rcases ite_split hres with ⟨_, h⟩ | ⟨_, hres⟩; · exact .inr ⟨h.symm, by omega⟩
  rcases ite_split hres with ⟨_, h⟩ | ⟨_, hres⟩; · exact .inr ⟨h.symm, by omega⟩
  exact .inl ⟨hres.symm, by omega⟩

/-- The parameters of a default are not checked against each other: 500 events with a latency of 499, and
a continuation number above the factor. -/
theorem C24_default_violated :
    (setDefaultSubrate {} 1 500 499 0 3200).1 = .success ∧ ¬(500 * (499 + 1) ≤ 500) ∧
      (setDefaultSubrate {} 1 1 0 499 3200).1 = .success ∧ ¬(499 < 1) := by decide +kernel

/-! ## C24: requests of a peer -/

/-- A central's answer to a request of its peer. Either it refuses: nothing changes. Or it accepts: the new
factor lies in what it accepts and is not above what the peer asked for, the continuation number is the larger
of the two, cut down to below the factor, the latency and the timeout are those asked for and acceptable, the interval stays, and the
peer and the host are told of exactly the new timing.

Missing: that the new timing is legal (`C24_accepts_illegal_violated`), and the products that overflow. -/
theorem C24_incoming_partial (e : End) (min max latency cont timeout : Nat) (hr : e.role = .central) (ha : e.accept.ok)
    (ho : e.timing.interval * min * (latency + 1) * 2 < 2 ^ 31) :
    incoming e (.subrateReq min max latency cont timeout) = .ok .success e [.subrateInd .invalidLlParameters 0 0 0 0] [] ∨
      ∃ t, incoming e (.subrateReq min max latency cont timeout) = .ok .success { e with timing := t }
          [.subrateInd .success t.factor t.latency t.cont t.timeout]
          [.subrateChange .success t.factor t.latency t.cont t.timeout] ∧
        e.accept.min ≤ t.factor ∧ t.factor ≤ e.accept.max ∧ t.factor ≤ max ∧ (min ≤ max → min ≤ t.factor) ∧
        t.cont = Nat.min (Nat.max cont e.accept.cont) (t.factor - 1) ∧ t.latency = latency ∧ latency ≤ e.accept.latency ∧
        t.timeout = timeout ∧ timeout ≤ e.accept.timeout ∧ t.interval = e.timing.interval := by
  rcases incomingSubrateReq_cases (a := min) (b := max) (c := latency) (d := cont) (t := timeout) hr
      (by unfold intMax; omega) with h | ⟨⟨h1, h2, h3, h4, _⟩, f, k, hf, hk, h⟩
  · exact .inl h
  · refine .inr ⟨_, h, ?_⟩
    obtain ⟨a1, a2, a3⟩ := ha
    have m1 : f ≤ max := by rw [hf]; exact Nat.min_le_left ..
    have m2 : f ≤ e.accept.max := by rw [hf]; exact Nat.min_le_right ..
    have m3 : e.accept.min ≤ f := by rw [hf]; exact Nat.le_min.mpr ⟨h1, a2⟩
    have m4 : (f + 65535) % 65536 = f - 1 := by omega
    refine ⟨m3, m2, m1, ?_, ?_, rfl, h3, rfl, h4, rfl⟩
    · intro hm
      rw [hf]
      exact Nat.le_min.mpr ⟨hm, h2⟩
    · show k = Nat.min (Nat.max cont e.accept.cont) (f - 1)
      rw [hk, m4]

/-- A request that is granted: a connection of 30 ms, timeout 480 ms. -/
example : exampleCentral.accept.ok ∧
    incoming exampleCentral (.subrateReq 1 4 0 2 48) =
      .ok .success { exampleCentral with timing := ⟨24, 4, 2, 0, 48⟩ } [.subrateInd .success 4 0 2 48]
        [.subrateChange .success 4 0 2 48] := by decide +kernel

/-- The check of the timeout is the wrong way round, so the central accepts timings that are not legal:
with an interval of 4 s, every tenth event and a timeout of 100 ms. -/
theorem C24_accepts_illegal_violated :
    ∃ e t p v, e.role = .central ∧ e.accept.ok ∧ Legal e.timing ∧
      incoming e (.subrateReq 1 10 0 0 10) = .ok .success { e with timing := t } p v ∧ ¬Legal t :=
  ⟨⟨.central, .initial 3200 0 3200, ⟨1, 10, 0, 0, 3200⟩, true⟩, ⟨3200, 10, 0, 0, 10⟩, _, _, by decide +kernel,
    by decide +kernel, by decide +kernel, rfl, by decide +kernel⟩

/-- And it refuses every request a peripheral's controller lets through: as long as the two ends have the
same interval, a peripheral can never get subrating. -/
theorem C24_peripheral_refused_violated (c p : End) (min max latency cont timeout : Nat) (p' : End) (v : List Ev)
    (hc : c.role = .central) (hi : c.timing.interval < 65536) (hs : c.timing.interval = p.timing.interval)
    (h : command p (.subrateRequest min max latency cont timeout) =
      .ok .success p' [.subrateReq min max latency cont timeout] v) :
    incoming c (.subrateReq min max latency cont timeout) = .ok .success c [.subrateInd .invalidLlParameters 0 0 0 0] [] := by
  have h : subrateRequest p min max latency cont timeout = .ok .success p' [.subrateReq min max latency cont timeout] v := h
  obtain ⟨⟨r1, r2, r3, r4, r5, r6, r7⟩, h2, h3, h4, _⟩ := subrateRequest_success h
  have hmul : c.timing.interval * min * (latency + 1) ≤ p.timing.interval * max * (latency + 1) := by
    rw [hs]
    exact Nat.mul_le_mul_right _ (Nat.mul_le_mul_left _ r2)
  have hb := mul_bound (i := p.timing.interval) h2 (by omega)
  rcases incomingSubrateReq_cases (e := c) (a := min) (b := max) (c := latency) (d := cont) (t := timeout) hc
      (by unfold intMax; omega) with h | ⟨⟨_, _, _, _, h5⟩, _⟩
  · exact h
  · generalize p.timing.interval * max * (latency + 1) = u at *
    generalize c.timing.interval * min * (latency + 1) = w at *
    omega

/-- The request of the example above, from a peripheral, is in the acceptable range and legal. -/
example : ∃ v, command ⟨.peripheral, .initial 24 0 500, {}, true⟩ (.subrateRequest 1 4 0 0 500) =
    .ok .success ⟨.peripheral, .initial 24 0 500, {}, true⟩ [.subrateReq 1 4 0 0 500] v := ⟨_, rfl⟩

/-- A peripheral takes any indication of its peer as it is: here a factor of 0. -/
theorem C24_indication_violated (e : End) (hr : e.role = .peripheral) (factor latency cont timeout : Nat) :
    incoming e (.subrateInd .success factor latency cont timeout) =
        .ok .success { e with timing := ⟨e.timing.interval, factor, cont, latency, timeout⟩ } []
          [.subrateChange .success factor latency cont timeout] ∧
      ¬Legal ⟨e.timing.interval, 0, cont, latency, timeout⟩ := by
  refine ⟨?_, fun h => absurd h.factor_pos (by simp)⟩
  simp only [incoming, incomingSubrateInd]
  rw [if_neg (by simp [hr])]

/-! ## C24: failures -/

/-- A PDU of a peer can abort the controller: a request sent to a peripheral, and an indication sent to a
central; a request with large numbers overflows at the central, even on a connection that accepts nothing
but the smallest parameters. -/
theorem C24_peer_aborts_violated :
    incoming ⟨.peripheral, .initial 24 0 500, {}, true⟩ (.subrateReq 1 1 0 0 500) = .assertion ∧
    incoming ⟨.central, .initial 24 0 500, {}, true⟩ (.subrateInd .success 1 0 0 500) = .assertion ∧
    incoming ⟨.central, .initial 24 0 500, {}, true⟩ (.subrateReq 65535 65535 65535 0 500) = .overflow := by
  decide +kernel

/-- Exactly when the arithmetic of a central overflows at a request of its peer: twice the span of the event counters, in the
units of the interval, does not fit into a signed 32-bit number. -/
theorem C24_overflow_violated (e : End) (hr : e.role = .central) (min max latency cont timeout : Nat) :
    incoming e (.subrateReq min max latency cont timeout) = .overflow ↔ 2 ^ 31 ≤ e.timing.interval * min * (latency + 1) * 2 := by
  simp only [incoming, incomingSubrateReq]
  rw [if_neg (by simp [hr])]
  by_cases h : e.timing.interval * min * (latency + 1) * 2 > intMax
  · rw [if_pos h]
    unfold intMax at h
    exact ⟨fun _ => by omega, fun _ => rfl⟩
  · rw [if_neg h]
    unfold intMax at h
    refine ⟨fun g => ?_, fun g => by omega⟩
    split at g <;> cases g

/-- Just there, and just below. -/
example : incoming ⟨.central, .initial 32 0 500, {}, true⟩ (.subrateReq 1024 1024 32767 0 500) = .overflow ∧
    incoming ⟨.central, .initial 32 0 500, {}, true⟩ (.subrateReq 1024 1024 32766 0 500) ≠ .overflow := by decide +kernel

/-- Between two of these controllers nothing fails, whatever the two hosts do and however the PDUs are
delayed. -/
theorem C24_two_controllers (interval latency timeout : Nat) (accC accP : Accept) (askC askP : Bool)
    (hi : interval < 65536) (acts : List Act) (hw : ∀ a ∈ acts, a.wf) :
    ∃ l, run (.start interval latency timeout accC accP askC askP) acts = some l :=
  let ⟨l, h, _⟩ := run_sane (start_sane hi) hw
  ⟨l, h⟩

/-- Two hosts that do honest things: both ask, the central also changes the interval. -/
def exampleActs : List Act :=
  [.hostP (.subrateRequest 1 100 0 0 3200), .hostC (.paramReply 3200 3200 0 3200 0 0), .arriveC, .arriveP, .arriveP]

example : (∀ a ∈ exampleActs, a.wf) ∧ ∀ a ∈ exampleActs, a.cautious := by
  simp [exampleActs, Act.wf, Act.cautious, Cmd.wf]

/-- With a peripheral's request crossing a change of the interval, the two controllers end up with an
illegal timing: every hundredth event of 4 s, 400 s, with a timeout of 32 s. -/
theorem C24_race_violated :
    ∃ l, run (.start 6 0 3200 ⟨1, 100, 0, 0, 3200⟩ {} true true) exampleActs = some l ∧
      l.central.timing = ⟨3200, 100, 0, 0, 3200⟩ ∧ l.peripheral.timing = l.central.timing ∧ ¬Legal l.central.timing := by
  refine ⟨⟨⟨.central, ⟨3200, 100, 0, 0, 3200⟩, ⟨1, 100, 0, 0, 3200⟩, true⟩, ⟨.peripheral, ⟨3200, 100, 0, 0, 3200⟩, {}, true⟩, [], []⟩, ?_⟩
  decide +kernel

/-! ## C59: agreement -/

/-- If the hosts use the link in the way of `Act.cautious`, both ends have the same timing whenever nothing
is on its way to the peripheral.

Missing: LE connection update at the central, parameter replies at the peripheral, and refusals with the
status success (`C59_connection_update_violated`, `C59_peripheral_reply_violated`, `C59_refusal_violated`). -/
theorem C59_agreement_partial (interval latency timeout : Nat) (accC accP : Accept) (askC askP : Bool)
    (hi : interval < 65536) (acts : List Act) (hw : ∀ a ∈ acts, a.wf) (hc : ∀ a ∈ acts, a.cautious) (l : Link)
    (h : run (.start interval latency timeout accC accP askC askP) acts = some l) (hq : l.toPeripheral = []) :
    l.peripheral.timing = l.central.timing := by
  have hs : Sane (.start interval latency timeout accC accP askC askP) := start_sane hi
  have := (run_agrees hs ⟨rfl, by simp [Link.start]⟩ hw hc h).same
  rwa [hq, List.foldl_nil] at this

/-- If, besides, the peripheral's host does not ask for subrating and the connection starts with a legal
timing, it stays legal. -/
theorem C59_legal_partial (interval latency timeout : Nat) (accC accP : Accept) (askC askP : Bool)
    (hi : interval < 65536) (hl : Legal (.initial interval latency timeout)) (acts : List Act) (hw : ∀ a ∈ acts, a.wf)
    (hc : ∀ a ∈ acts, a.cautious) (hn : ∀ a ∈ acts, a.noRequest) (l : Link)
    (h : run (.start interval latency timeout accC accP askC askP) acts = some l) : Legal l.central.timing :=
  (run_fit (start_sane hi) ⟨rfl, by simp [Link.start]⟩ ⟨hl, by simp [Link.start]⟩ hw hc hn h).legal

/-- A history: the peripheral asks for another interval, the central's host agrees, then subrates. -/
example : ∃ l, run (.start 24 0 500 {} {} true true)
      [.hostP (.connectionUpdate 12 12 0 400), .arriveC, .hostC (.paramReply 12 12 0 400 0 0),
        .hostC (.subrateRequest 1 8 0 1 400), .arriveP, .arriveP] = some l ∧ l.toPeripheral = [] ∧
      l.peripheral.timing = ⟨12, 8, 1, 0, 400⟩ ∧ l.central.timing = ⟨12, 8, 1, 0, 400⟩ ∧
      Legal (.initial 24 0 500) ∧ Legal ⟨12, 8, 1, 0, 400⟩ := by
  refine ⟨⟨⟨.central, ⟨12, 8, 1, 0, 400⟩, ⟨1, 8, 0, 1, 400⟩, true⟩, ⟨.peripheral, ⟨12, 8, 1, 0, 400⟩, {}, true⟩, [], []⟩, ?_⟩
  decide +kernel

/-- LE connection update at the central: the peripheral gets the new timing, the central keeps the old
one. Nothing is checked either: here the interval is 0 and the timeout is 0. -/
theorem C59_connection_update_violated :
    run (.start 24 0 500 {} {} true true) [.hostC (.connectionUpdate 0 0 0 0), .arriveP] =
      some ⟨⟨.central, .initial 24 0 500, {}, true⟩, ⟨.peripheral, .initial 0 0 0, {}, true⟩, [], []⟩ ∧
    ¬Legal (.initial 0 0 0) := by decide +kernel

/-- A parameter reply of the peripheral's host, which nobody asked for, crosses one of the central's. -/
theorem C59_peripheral_reply_violated :
    run (.start 24 0 500 {} {} true true)
        [.hostC (.paramReply 12 12 0 400 0 0), .hostP (.paramReply 40 40 0 400 0 0), .arriveP, .arriveC] =
      some ⟨⟨.central, .initial 40 0 400, {}, true⟩, ⟨.peripheral, .initial 12 0 400, {}, true⟩, [], []⟩ := by
  decide +kernel

/-- A refusal with the status success sets everything to zero at the peer only. -/
theorem C59_refusal_violated :
    run (.start 24 0 500 {} {} true true) [.hostC (.paramRefuse .success), .arriveP] =
      some ⟨⟨.central, .initial 24 0 500, {}, true⟩, ⟨.peripheral, .initial 0 0 0, {}, true⟩, [], []⟩ := by
  decide +kernel

/-- A reply to a parameter request that the controller accepts makes a legal timing with intervals in
range. -/
theorem C59_reply_legal (e : End) (imin imax latency timeout ceMin ceMax : Nat) (e' : End) (p : List Pdu) (v : List Ev)
    (h : command e (.paramReply imin imax latency timeout ceMin ceMax) = .ok .success e' p v) :
    Legal e'.timing ∧ e'.timing = .initial imin latency timeout ∧ 6 ≤ imin ∧ imin ≤ 3200 ∧
      p = [.paramUpdate .success imin latency timeout] := by
  have h : paramReply e imin imax latency timeout ceMin ceMax = .ok .success e' p v := h
  rcases paramReply_cases e imin imax latency timeout ceMin ceMax with h' | ⟨⟨h1, h2, h3⟩, h'⟩
  · rw [h'] at h; cases h
  · rw [h'] at h; cases h
    exact ⟨h3, rfl, h1, h2, rfl⟩

example : ∃ e' p v, command exampleCentral (.paramReply 6 10 499 3200 0 0) = .ok .success e' p v :=
  ⟨_, _, _, rfl⟩

/-- A peripheral's request for other parameters is never lost: the central's host is shown exactly what was
asked for, or, if that event is masked, the peripheral is refused at once and its host told so. Neither
changes the timing of an end. -/
theorem C59_request_answered (c p : End) (imin imax latency timeout : Nat) :
    (c.asksHost = true → incoming c (.paramReq imin imax latency timeout) =
        .ok .success c [] [.paramRequest imin imax latency timeout]) ∧
    (c.asksHost = false → ∃ s, s ≠ .success ∧
        incoming c (.paramReq imin imax latency timeout) = .ok .success c [.paramUpdate s 0 0 0] [] ∧
        incoming p (.paramUpdate s 0 0 0) = .ok .success p [] [.updateComplete s 0 0 0]) := by
  constructor <;> intro h
  · simp [incoming, incomingParamReq, h]
  · exact ⟨.unsupportedRemote, nofun, by simp [incoming, incomingParamReq, h], rfl⟩

example : (⟨.central, .initial 24 0 500, {}, false⟩ : End).asksHost = false := rfl

/-- All replies with legal parameters in the ranges of the specification are accepted. -/
theorem C59_reply_accepted (e : End) (imin imax latency timeout ceMin ceMax : Nat) (h1 : 6 ≤ imin) (h2 : imin ≤ imax)
    (h3 : imax ≤ 3200) (h4 : latency ≤ 499) (h5 : 10 ≤ timeout) (h6 : timeout ≤ 3200)
    (h7 : 2 * (125 * imax * (latency + 1)) < 1000 * timeout) (h8 : ceMin ≤ ceMax) :
    ∃ e' p v, command e (.paramReply imin imax latency timeout ceMin ceMax) = .ok .success e' p v := by
  simp only [command, paramReply]
  rw [if_neg, if_neg (by omega)]
  · exact ⟨_, _, _, rfl⟩
  · have : (1 + latency) * imax = imax * (latency + 1) := by rw [Nat.mul_comm, Nat.add_comm]
    have h' : 125 * imax * (latency + 1) = 125 * (imax * (latency + 1)) := Nat.mul_assoc ..
    rw [this]
    rw [h'] at h7
    generalize imax * (latency + 1) = u at *
    omega

example : ∃ e' p v, command exampleCentral (.paramReply 24 24 0 500 0 0) = .ok .success e' p v :=
  C59_reply_accepted _ _ _ _ _ _ _ (by decide) (by decide) (by decide) (by decide) (by decide) (by decide) (by decide) (by decide)

end Verif.Sub
