import Verif.Port.Lemmas
/-!
# C82, C83: the HCI port and its trace
-/
namespace Verif.Port

open H4 (Kind Parser)

variable {σ : Type}

/-! ### C82 -/

/-- C82: whatever the controller does, whatever else happens to it, and however the octets of the host are cut into reads and
ticks, the packets that the controller has handled are the first ones of the packets of which the host has sent octets. -/
theorem C82_received (net : Net) (ctl : Ctl σ) (c : σ) (tr : Option Trace) (ops : List (Op σ)) (s : Dev σ)
    (h : (Dev.new c tr).run net ctl ops = some s) (hr : H4.Respects (H4.init true) (heard net ctl (Dev.new c tr) ops))
    (pkts : List H4.Packet) (hwf : ∀ q ∈ pkts, q.WellFormed)
    (hp : (heard net ctl (Dev.new c tr) ops).flatten <+: H4.encodeAll pkts) :
    fromHost s.log <+: pkts.map (fun q => (q.kind, q.bytes)) := by
  obtain ⟨ev, h1, h2⟩ := run_heard ops h
  rw [h2]
  obtain ⟨rest, hrest⟩ := hp
  obtain ⟨p', h3, -, -⟩ := H4.feed_packets pkts hwf (H4.init true) rfl
  have h1' : H4.feed (H4.init true) (heard net ctl (Dev.new c tr) ops) = .done true s.parser ev := h1
  rw [H4.feed_bytewise _ _ hr] at h1'
  rw [← hrest, H4.bytewise, List.map_append, H4.feed_append] at h3
  simp only [H4.bytewise] at h1'
  rw [h1'] at h3
  simp only [H4.Outcome.andThen] at h3
  split at h3
  · rename_i r2 p2 ev2 _
    injection h3 with _ _ e
    exact ⟨ev2, by rw [← e]; rfl⟩
  · rename_i hno; rw [h3] at hno; exact absurd rfl (hno _ _ _)

/-- C82: and it has handled every packet of which it has all octets; this without any assumption about the octets that follow. -/
theorem C82_received_all (net : Net) (ctl : Ctl σ) (c : σ) (tr : Option Trace) (ops : List (Op σ)) (s : Dev σ)
    (h : (Dev.new c tr).run net ctl ops = some s) (hr : H4.Respects (H4.init true) (heard net ctl (Dev.new c tr) ops))
    (pkts : List H4.Packet) (hwf : ∀ q ∈ pkts, q.WellFormed)
    (hp : H4.encodeAll pkts <+: (heard net ctl (Dev.new c tr) ops).flatten) :
    pkts.map (fun q => (q.kind, q.bytes)) <+: fromHost s.log := by
  obtain ⟨ev, h1, h2⟩ := run_heard ops h
  rw [h2]
  obtain ⟨rest, hrest⟩ := hp
  obtain ⟨p', h3, -, -⟩ := H4.feed_packets pkts hwf (H4.init true) rfl
  have h1' : H4.feed (H4.init true) (heard net ctl (Dev.new c tr) ops) = .done true s.parser ev := h1
  rw [H4.feed_bytewise _ _ hr, ← hrest, H4.bytewise, List.map_append, H4.feed_append] at h1'
  simp only [H4.bytewise] at h3
  rw [h3] at h1'
  simp only [H4.Outcome.andThen] at h1'
  split at h1'
  · rename_i r2 p2 ev2 _
    injection h1' with _ _ e
    exact ⟨ev2, by rw [← e]; rfl⟩
  · rename_i hno; rw [h1'] at hno; exact absurd rfl (hno _ _ _)

/-- C82: if the socket is connected and takes all octets of each write, the octets for the host are those of the packets that the
controller has sent to it, in order, up to the time the connection was closed. -/
theorem C82_sent (net : Net) (ctl : Ctl σ) (c : σ) (tr : Option Trace) (ops : List (Op σ)) (s : Dev σ)
    (h : (Dev.new c tr).run net ctl ops = some s) (n : Nat) (hn : ∀ i, net.alive i = true ∧ n < net.room i)
    (hl : ∀ m ∈ toHost s.log, m.2.length ≤ n) :
    ∃ sent late, toHost s.log = sent ++ late ∧ s.wire = onWire sent ∧ (s.up = true → late = []) := by
  have := (onWire_kept (σ := σ) (net := net) (n := n + 1) (by omega) (fun i => ⟨(hn i).1, (hn i).2⟩)).run (ctl := ctl) ops h
    (by intro _; exact ⟨[], [], rfl, rfl, fun _ => rfl⟩)
  exact this (fun m hm => by have := hl m hm; omega)

/-- C82: the host that reads these octets, cut in any way, gets back the packets. -/
theorem C82_host (net : Net) (ctl : Ctl σ) (c : σ) (tr : Option Trace) (ops : List (Op σ)) (s : Dev σ)
    (h : (Dev.new c tr).run net ctl ops = some s) (hn : ∀ i, net.alive i = true ∧ 65540 ≤ net.room i) (hu : s.up = true)
    (pkts : List H4.Packet) (hwf : ∀ q ∈ pkts, q.WellFormed) (hs : toHost s.log = pkts.map (fun q => (q.kind, q.bytes)))
    (reads : List Bytes) (hf : reads.flatten = s.wire) (hr : H4.Respects (H4.init false) reads) :
    ∃ p, H4.feed (H4.init false) reads = .done true p (toHost s.log) := by
  have hl : ∀ m ∈ toHost s.log, m.2.length ≤ 65539 := by
    rw [hs]
    intro m hm
    simp only [List.mem_map] at hm
    obtain ⟨q, hq, rfl⟩ := hm
    have := hwf q hq
    cases q <;> simp only [H4.Packet.WellFormed, H4.Packet.bytes, List.length_append, List.length_cons, List.length_nil] at * <;> omega
  obtain ⟨sent, late, h1, h2, h3⟩ := C82_sent net ctl c tr ops s h 65539 (fun i => ⟨(hn i).1, by have := (hn i).2; omega⟩) hl
  rw [h3 hu, List.append_nil] at h1
  have hw : ∀ qs : List H4.Packet, onWire (qs.map (fun q => (q.kind, q.bytes))) = H4.encodeAll qs := by
    intro qs
    induction qs with
    | nil => rfl
    | cons q qs ih =>
      rw [List.map_cons, show ∀ a (b : List Msg), a :: b = [a] ++ b from fun _ _ => rfl, onWire_append, ih, onWire_one]
      cases q <;> simp [H4.encodeAll, H4.Packet.encode, H4.Packet.kind, H4.Packet.typeOctet, idc]
  obtain ⟨p, e, -⟩ := H4.C01_packets_delivered false pkts hwf reads hr (by rw [hf, h2, ← h1, hs, hw])
  exact ⟨p, by rw [e, hs]⟩

/-- C82: a connection that is closed stays closed; nothing more is handled or put on the wire. -/
theorem C82_closed (net : Net) (ctl : Ctl σ) (s s' : Dev σ) (hu : s.up = false) (ops : List (Op σ))
    (h : s.run net ctl ops = some s') : s'.up = false ∧ s'.wire = s.wire ∧ fromHost s'.log = fromHost s.log := by
  induction ops generalizing s with
  | nil => cases h; exact ⟨hu, rfl, rfl⟩
  | cons op ops ih =>
    obtain ⟨t, h1, h2⟩ := run_cons h
    obtain ⟨-, a, -⟩ := step_some h1
    obtain ⟨b1, b2, b3⟩ := a hu
    obtain ⟨c1, c2, c3⟩ := ih t b1 h2
    exact ⟨c1, by rw [c2, b2], by rw [c3, b3]⟩

/-- C82: a tick that finds the end of the stream, or a reset connection, closes the connection. -/
theorem C82_end (net : Net) (ctl : Ctl σ) (s s' : Dev σ) (hg : s.gone = false) (reads : List Bytes) (stop : Stop)
    (he : [] ∈ reads ∨ stop = .reset) (h : s.step net ctl (.tick reads stop) = some s') : s'.up = false := by
  have key : ∀ (reads : List Bytes) (s s' : Dev σ), ([] ∈ reads ∨ stop = .reset) → s.read net ctl reads stop = some s' → s'.up = false := by
    intro reads
    induction reads with
    | nil =>
      intro s s' he h
      rcases he with he | rfl
      · cases he
      · exact (close_some h).2.2.1
    | cons c cs ih =>
      intro s s' he h
      simp only [Dev.read] at h
      split at h
      · exact (close_some h).2.2.1
      · rename_i hc
        split at h
        · split at h
          · cases h
          · refine ih _ _ ?_ h
            rcases he with he | he
            · rcases List.mem_cons.mp he with he | he
              · exact absurd he.symm hc
              · exact .inl he
            · exact .inr he
        · cases h
  simp only [Dev.step, hg, Bool.false_eq_true, if_false] at h
  split at h
  · cases h
  · rename_i t ht
    obtain ⟨c, ms, -, b1, b2, b3, b4, -⟩ := after_some h
    rw [b4]
    split at ht
    · exact key reads s t he ht
    · exact (close_some ht).2.2.1

/-- C82: the device is told that its connection was closed, if and only if it was; then it is removed, and does nothing any more. -/
theorem C82_removed (net : Net) (ctl : Ctl σ) (c : σ) (tr : Option Trace) (ops : List (Op σ)) (s : Dev σ)
    (h : (Dev.new c tr).run net ctl ops = some s) (hg : s.gone = false) :
    (s.up = true → s.step net ctl .remove = some s)
    ∧ (s.up = false → ∃ s', s.step net ctl .remove = some s' ∧ s'.gone = true ∧ ∀ ops, s'.run net ctl ops = some s') := by
  have inv : ∀ (ops : List (Op σ)) (s s' : Dev σ), (s.up = false ↔ s.closes ≠ 0) → s.run net ctl ops = some s' →
      (s'.up = false ↔ s'.closes ≠ 0) := by
    intro ops
    induction ops with
    | nil => intro s s' hi h; cases h; exact hi
    | cons op ops ih =>
      intro s s' hi h
      obtain ⟨t, h1, h2⟩ := run_cons h
      obtain ⟨-, -, -, a, -⟩ := step_some h1
      exact ih t s' (a hi) h2
  have hi := inv ops _ s (by simp [Dev.new]) h
  constructor
  · intro hu
    have : s.closes = 0 := by
      rcases Nat.eq_zero_or_pos s.closes with h0 | h0
      · exact h0
      · have := hi.mpr (by omega); rw [hu] at this; cases this
    simp [Dev.step, hg, this]
  · intro hu
    have hc := hi.mp hu
    refine ⟨{ s with gone := true }, by simp [Dev.step, hg, hc], rfl, ?_⟩
    intro ops
    induction ops with
    | nil => rfl
    | cons op ops ih => simp only [Dev.run]; rw [show Dev.step net ctl { s with gone := true } op = some { s with gone := true } from rfl]; exact ih

/-- C82: with a controller that does not abort, without a filter and without unexpected errors of reads, no octets that a host
sends end the process, except those of an event packet. Missing: events, see `C82_event_violated`. -/
theorem C82_survives_partial (net : Net) (ctl : Ctl σ) (T : ctl.Total) (c : σ) (tr : Option Trace)
    (ht : ∀ t, tr = some t → t.filter = none) (ops : List (Op σ)) (hok : ∀ reads, Op.tick reads .fail ∉ ops)
    (hr : H4.Respects (H4.init true) (heard net ctl (Dev.new c tr) ops))
    (he : ∀ r p ev, H4.feed (H4.init true) (heard net ctl (Dev.new c tr) ops) = .done r p ev → ∀ e ∈ ev, e.1 ≠ .event) :
    ∃ s, (Dev.new c tr).run net ctl ops = some s := by
  obtain ⟨r, p, ev, hf⟩ := feed_done _ _ H4.Reachable.init hr
  refine run_total net T ops (s := Dev.new c tr) (fun t h => ht t h) ?_ hf (he r p ev hf)
  simp only [List.all_eq_true]
  intro op hop
  cases op with
  | tick reads stop =>
    cases stop with
    | fail => exact absurd hop (hok reads)
    | _ => rfl
  | _ => rfl

/-- C82, violated: a host that sends an event packet ends the process, and with it all other connections. -/
theorem C82_event_violated (net : Net) (ctl : Ctl σ) (c : σ) (tr : Option Trace) :
    H4.Respects (H4.init true) [[4], [0, 0]] ∧ (Dev.new c tr).run net ctl [.tick [[4], [0, 0]] .again] = none := by
  have h1 : H4.consume (H4.init true) [4] = .done true ⟨.preamble, 4, 4, [], 2, true⟩ [] := by decide +kernel
  have h2 : H4.consume ⟨.preamble, 4, 4, [], 2, true⟩ [0, 0] = .done true ⟨.type, 0, 4, [0, 0], 0, true⟩ [(.event, [0, 0])] := by
    decide +kernel
  refine ⟨⟨by simp, by decide, ?_⟩, ?_⟩
  · intro r p ev h
    rw [h1] at h
    injection h with a b c
    subst b
    exact ⟨by simp, by decide, fun _ _ _ _ => trivial⟩
  · simp [Dev.run, Dev.step, Dev.new, Dev.read, h1, h2, Dev.deliver]

/-- A controller that only sends what it is told to. -/
def quiet : Ctl Unit := ⟨fun _ _ _ => some ((), []), fun _ => some ((), []), fun _ => some ((), [])⟩

/-- A socket that takes two octets of the second write, and all of the others. -/
def narrow : Net := ⟨fun _ => true, fun i => if i = 1 then 2 else 100000, fun _ => 1500999⟩

/-- C82, violated: what the socket does not take is lost, but the following packets are sent. The host reads packets that were
never sent. -/
theorem C82_full_violated : ∃ (ops : List (Op Unit)) (s : Dev Unit) (reads : List Bytes) (p : Parser) (m : Msg),
    (Dev.new () none).run narrow quiet ops = some s ∧ s.up = true ∧ reads.flatten = s.wire ∧ H4.Respects (H4.init true) reads
    ∧ H4.feed (H4.init true) reads = .done true p [m] ∧ m ∉ toHost s.log := by
  let ops : List (Op Unit) := [.work () [(.event, [0x0e, 4, 1, 3, 0x0c, 0]), (.event, [0x0f, 1, 2])]]
  have h0 : ((Dev.new () none).run narrow quiet ops).map (fun s => (s.up, s.wire, toHost s.log)) = some (true,
    [4, 0x0e, 4, 4, 0x0f, 1, 2], [(.event, [0x0e, 4, 1, 3, 0x0c, 0]), (.event, [0x0f, 1, 2])]) := by decide +kernel
  rw [Option.map_eq_some_iff] at h0
  obtain ⟨s, hs, h0⟩ := h0
  simp only [Prod.mk.injEq] at h0
  obtain ⟨h1, h2, h3⟩ := h0
  refine ⟨ops, s, [[4], [0x0e, 4], [4, 0x0f, 1, 2]], ⟨.type, 0, 4, [0x0e, 4, 4, 0x0f, 1, 2], 0, true⟩, (.event, [0x0e, 4, 4, 0x0f, 1, 2]), hs, h1,
    by rw [h2]; rfl, ?_, by decide +kernel, by rw [h3]; decide +kernel⟩
  have e1 : H4.consume (H4.init true) [4] = .done true ⟨.preamble, 4, 4, [], 2, true⟩ [] := by decide +kernel
  have e2 : H4.consume ⟨.preamble, 4, 4, [], 2, true⟩ [0x0e, 4] = .done true ⟨.payload, 4, 4, [0x0e, 4], 4, true⟩ [] := by
    decide +kernel
  refine ⟨by simp, by decide, ?_⟩
  intro r p ev h
  rw [e1] at h
  injection h with _ b _
  subst b
  refine ⟨by simp, by decide, ?_⟩
  intro r p ev h
  rw [e2] at h
  injection h with _ b _
  subst b
  exact ⟨by simp, by decide, fun _ _ _ _ => trivial⟩

/-- C82, violated: an isochronous data packet with a load of 4096 octets or more, whose length field of 14 bits
(packets/hci_packets.pdl: Iso; Core Vol 4 Part E 5.4.5) does not fit into 12 bits, is cut off after its header. What follows is
read as other packets: here as an event, which ends the process. -/
theorem C82_iso_violated (net : Net) (ctl : Ctl σ) (c : σ) (tr : Option Trace) (ht : tr = none) (b0 b1 : UInt8) (load : Bytes)
    (hh : ctl.handle c .iso [b0, b1, 0, 0x10] = some (c, [])) (_hl : load.length = 4096) (h3 : load.take 3 = [4, 0, 0]) :
    (Dev.new c tr).run net ctl [.tick [[5], [b0, b1, 0, 0x10], load.take 1, (load.drop 1).take 2] .again] = none := by
  subst ht
  have e1 : load.take 1 = [4] := by
    have : load.take 1 = (load.take 3).take 1 := by rw [List.take_take]; rfl
    rw [this, h3]; rfl
  have e2 : (load.drop 1).take 2 = [0, 0] := by
    have : (load.drop 1).take 2 = (load.take 3).drop 1 := by rw [List.drop_take]
    rw [this, h3]; rfl
  have c1 : H4.consume (H4.init true) [5] = .done true ⟨.preamble, 5, 5, [], 4, true⟩ [] := by decide +kernel
  have c2 : H4.consume ⟨.preamble, 5, 5, [], 4, true⟩ [b0, b1, 0, 0x10] = .done true ⟨.type, 0, 5, [b0, b1, 0, 0x10], 0, true⟩
    [(.iso, [b0, b1, 0, 0x10])] := by
    simp [H4.consume, H4.requested, H4.consumePreamble, H4.kindOf, H4.packetLength, H4.lengthOffset, H4.ready]
  have c3 : H4.consume ⟨.type, 0, 5, [b0, b1, 0, 0x10], 0, true⟩ [4] = .done true ⟨.preamble, 4, 4, [], 2, true⟩ [] := by
    simp [H4.consume, H4.requested, H4.consumeType, H4.kindOf, H4.preambleSize]
  have c4 : H4.consume ⟨.preamble, 4, 4, [], 2, true⟩ [0, 0] = .done true ⟨.type, 0, 4, [0, 0], 0, true⟩ [(.event, [0, 0])] := by
    decide +kernel
  rw [e1, e2]
  simp [Dev.run, Dev.step, Dev.new, Dev.read, c1, c2, c3, c4, Dev.deliver, Dev.note, hh, Dev.after, Dev.send]

/-! ### C83 -/

/-- C83: the trace of a device, with or without a filter, can be read: it has one record for each packet, in order, with its
direction, its type and what the filter shows of it, and nothing of it is cut off. Missing: the microseconds of the times, see
`C83_time_violated`. -/
theorem C83_trace_partial (net : Net) (ctl : Ctl σ) (c : σ) (b : Bool) (ops : List (Op σ)) (s : Dev σ)
    (h : (Dev.new c (some (Trace.start b))).run net ctl ops = some s)
    (hf : b = true → ∀ e ∈ s.log, Pcap.Framed (idc e.2.1) e.2.2)
    (hl : ∀ e ∈ s.log, e.2.2.length < 4294967291) (hc : ∀ i, net.clock i < 4294967296 * 1000000) :
    ∃ t qs rs, s.trace = some t ∧ shown b s.log = some qs ∧ readFile t.file = some (201, rs)
    ∧ rs.map Rec.data = List.zipWith (fun e q => captured e.1 e.2.1 q) s.log qs
    ∧ qs.map List.length = s.log.map (fun e => e.2.2.length)
    ∧ (∀ r ∈ rs, r.length = r.data.length)
    ∧ rs.map Rec.seconds = (List.range s.log.length).map (fun i => net.clock i / 1000000) := by
  have T := (traced_kept (σ := σ) net b).run (ctl := ctl) ops h (by
    refine ⟨Trace.start b, [], rfl, rfl, by simp [Trace.start], rfl, rfl, ?_, ?_⟩
    · rintro rfl; exact ⟨rfl, rfl⟩
    · rintro rfl; exact ⟨[], rfl, rfl⟩)
  obtain ⟨t, es, h1, h2, h3, h4, h5, h6, h7⟩ := T
  have hidc : ∀ k : Kind, typeOctet k = idc k := by
    intro k; cases k <;> rfl
  have hshown : shown b s.log = some (es.map Entry.data)
      ∧ (es.map Entry.data).map List.length = s.log.map (fun e => e.2.2.length) := by
    cases b with
    | false =>
      obtain ⟨-, e⟩ := h6 rfl
      rw [e]
      refine ⟨rfl, ?_⟩
      rw [List.map_map]; rfl
    | true =>
      obtain ⟨m, -, e⟩ := h7 rfl
      constructor
      · simp only [shown, if_true, hidc, e, Option.map_some]
      · have := Pcap.C13_length _ (by
          intro x hx
          simp only [List.mem_map] at hx
          obtain ⟨y, hy, rfl⟩ := hx
          exact hf rfl y hy) _ _ e
        rw [this, List.map_map]; rfl
  obtain ⟨hs1, hs2⟩ := hshown
  have hlen : es.map Entry.len = s.log.map (fun e => e.2.2.length) := by
    have := congrArg (List.map (fun x : Dir × Kind × Nat => x.2.2)) h4
    simpa [List.map_map, Function.comp_def] using this
  have hok : ∀ e ∈ es, e.Ok := by
    intro e he
    refine ⟨?_, ?_, ?_⟩
    · have : e.time ∈ es.map Entry.time := List.mem_map_of_mem he
      rw [h5] at this
      simp only [List.mem_map] at this
      obtain ⟨i, -, hi⟩ := this
      rw [← hi]; exact hc i
    · have : es.map (fun e => e.data.length) = es.map Entry.len := by
        rw [hlen, ← hs2, List.map_map]; rfl
      exact List.map_inj_left.mp this e he
    · have : e.len ∈ es.map Entry.len := List.mem_map_of_mem he
      rw [hlen] at this
      simp only [List.mem_map] at this
      obtain ⟨x, hx, hi⟩ := this
      rw [← hi]; exact hl x hx
  refine ⟨t, es.map Entry.data, es.map Entry.toRec, h1, hs1, by rw [h3]; exact readFile_entries es hok, ?_, hs2, ?_, ?_⟩
  · have hz : ∀ (es : List Entry) (log : List (Dir × Kind × Bytes)),
        es.map (fun e => (e.dir, e.kind, e.len)) = log.map (fun e => (e.1, e.2.1, e.2.2.length)) →
        (es.map Entry.toRec).map Rec.data = List.zipWith (fun e q => captured e.1 e.2.1 q) log (es.map Entry.data) := by
      intro es
      induction es with
      | nil => intro log hz; cases log <;> simp at hz ⊢
      | cons e es ih =>
        intro log hz
        cases log with
        | nil => simp at hz
        | cons x log =>
          simp only [List.map_cons, List.cons.injEq, Prod.mk.injEq] at hz
          simp only [List.map_cons, List.zipWith_cons_cons, ih log hz.2, ← hz.1.1, ← hz.1.2.1, Entry.toRec]
    exact hz es s.log h4
  · intro r hr
    simp only [List.mem_map] at hr
    obtain ⟨e, he, rfl⟩ := hr
    have := (hok e he).2.1
    simp only [Entry.toRec, captured_eq, List.length_append, List.length_cons, List.length_nil, this]
  · have := congrArg (List.map (fun x => x / 1000000)) h5
    simpa [List.map_map, Function.comp_def, Entry.toRec] using this

/-- C83, violated: the microseconds of a record are the milliseconds of the time. A packet that is sent 0.500999 seconds after
another one appears 500 microseconds after it. -/
theorem C83_time_violated : ∃ (ops : List (Op Unit)) (s : Dev Unit) (t : Trace) (r : Rec),
    (Dev.new () (some (Trace.start false))).run narrow quiet ops = some s ∧ s.trace = some t ∧ readFile t.file = some (201, [r])
    ∧ r.seconds = 1 ∧ r.micros = 500 ∧ narrow.clock 0 = 1500999 := by
  let ops : List (Op Unit) := [.work () [(.event, [0x0f, 1, 2])]]
  have h0 : ((Dev.new () (some (Trace.start false))).run narrow quiet ops).map (fun s => s.trace.map (fun t => readFile t.file))
    = some (some (some (201, [⟨1, 500, 8, [0, 0, 0, 1, 4, 0x0f, 1, 2]⟩]))) := by decide +kernel
  rw [Option.map_eq_some_iff] at h0
  obtain ⟨s, hs, h0⟩ := h0
  rw [Option.map_eq_some_iff] at h0
  obtain ⟨t, ht, h0⟩ := h0
  exact ⟨ops, s, t, _, hs, ht, h0, rfl, rfl, rfl⟩

/-- C83, violated: a trace that is created with a filter has none, and shows the packets as they are. -/
theorem C83_filter_violated : (∀ f, Trace.create f = Trace.start false)
    ∧ ∃ p q, Pcap.Framed 1 p ∧ (Pcap.filterPacket [] p 1).map (·.2) = some q ∧ q ≠ p
      ∧ ((Trace.create (some [])).append 0 .hostToController .command p).map (fun t => (readFile t.file).map (fun f => f.2.map Rec.data))
        = some (some [captured .hostToController .command p]) := by
  refine ⟨fun f => by cases f <;> rfl, [0x13, 0x0C, 248] ++ [0x4A, 0x6F, 0x65] ++ List.replicate 245 0, ?_⟩
  have h : (Pcap.filterPacket [] ([0x13, 0x0C, 248] ++ [0x4A, 0x6F, 0x65] ++ List.replicate 245 0) 1).isSome = true := by
    decide +kernel
  obtain ⟨⟨m, q⟩, hq⟩ := Option.isSome_iff_exists.mp h
  refine ⟨q, (by decide +kernel : ([0x4A, 0x6F, 0x65] ++ List.replicate 245 0 : Bytes).length = (248 : UInt8).toNat), by rw [hq]; rfl, ?_, by decide +kernel⟩
  intro he
  have h' : (Pcap.filterPacket [] ([0x13, 0x0C, 248] ++ [0x4A, 0x6F, 0x65] ++ List.replicate 245 0) 1).map (·.2)
    ≠ some ([0x13, 0x0C, 248] ++ [0x4A, 0x6F, 0x65] ++ List.replicate 245 0) := by decide +kernel
  rw [hq, he] at h'
  exact h' rfl

/-- C83, violated: packets that are dropped because the connection was closed are recorded as sent to the host. -/
theorem C83_dropped_violated : ∃ (ops : List (Op Unit)) (s : Dev Unit) (t : Trace) (r : Rec),
    (Dev.new () (some (Trace.start false))).run narrow quiet ops = some s ∧ s.wire = [] ∧ s.trace = some t
    ∧ readFile t.file = some (201, [r]) ∧ r.data = captured .controllerToHost .event [0x0f, 1, 2] := by
  let ops : List (Op Unit) := [.tick [[]] .again, .work () [(.event, [0x0f, 1, 2])]]
  have h0 : ((Dev.new () (some (Trace.start false))).run narrow quiet ops).map (fun s => (s.wire, s.trace.map (fun t => readFile t.file)))
    = some ([], some (some (201, [⟨1, 500, 8, [0, 0, 0, 1, 4, 0x0f, 1, 2]⟩]))) := by decide +kernel
  rw [Option.map_eq_some_iff] at h0
  obtain ⟨s, hs, h0⟩ := h0
  simp only [Prod.mk.injEq] at h0
  obtain ⟨hw, h0⟩ := h0
  rw [Option.map_eq_some_iff] at h0
  obtain ⟨t, ht, h0⟩ := h0
  exact ⟨ops, s, t, _, hs, hw, ht, h0, rfl⟩

/-- The hypotheses of the theorems are met: a host that sends a reset command in two ticks and closes the connection, and a
controller that answers. -/
def demoCtl : Ctl Nat := ⟨fun n k _ => some (n + 1, if k = .command then [(.event, [0x0e, 4, 1, 3, 0x0c, 0])] else []),
  fun n => some (n, []), fun n => some (n, [])⟩

def demoNet : Net := ⟨fun _ => true, fun _ => 65540, fun i => 1000000 * i⟩

def demoOps : List (Op Nat) := [.tick [[1], [3, 0x0c]] .again, .work 7 [(.event, [0x10, 1, 0])],
  .tick [[0], [2], [1, 0, 1, 0]] .again]

example : (match (Dev.new 0 (some (Trace.start true))).run demoNet demoCtl demoOps with
    | none => false
    | some s => s.up && s.wire == [4, 0x10, 1, 0, 4, 0x0e, 4, 1, 3, 0x0c, 0] && fromHost s.log == [(.command, [3, 0x0c, 0])]
      && toHost s.log == [(.event, [0x10, 1, 0]), (.event, [0x0e, 4, 1, 3, 0x0c, 0])]) = true := by decide +kernel

example : heard demoNet demoCtl (Dev.new 0 (some (Trace.start true))) demoOps = [[1], [3, 0x0c], [0], [2], [1, 0, 1, 0]] := by
  decide +kernel

example : (heard demoNet demoCtl (Dev.new 0 (some (Trace.start true))) demoOps).flatten
    <+: H4.encodeAll [.command 3 0x0c [], .acl 1 0 [9]] := by decide +kernel

example : demoCtl.Total := ⟨fun _ _ _ => rfl, fun _ => rfl, fun _ => rfl⟩

example : ∀ e ∈ [(Dir.controllerToHost, Kind.event, ([0x10, 1, 0] : Bytes)), (.hostToController, .command, [3, 0x0c, 0])],
    Pcap.Framed (idc e.2.1) e.2.2 := by
  intro e he
  simp only [List.mem_cons, List.not_mem_nil, or_false] at he
  rcases he with rfl | rfl <;> rfl

end Verif.Port
