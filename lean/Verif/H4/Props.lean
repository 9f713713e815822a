import Verif.H4.Lemmas
/-!
# Properties C01, C02, C03: the H4 stream parser
-/

namespace Verif.H4

/-- **C01.** A stream made of well-formed packets, cut into reads in any way the parser's requests
allow, yields exactly the packets, in order and on the right callbacks, and leaves the parser waiting
for a type octet. -/
theorem C01_packets_delivered (recovery : Bool) (pkts : List Packet)
    (hwf : ∀ q ∈ pkts, q.WellFormed) (reads : List (List UInt8))
    (hreads : Respects (init recovery) reads) (hstream : reads.flatten = encodeAll pkts) :
    ∃ p', feed (init recovery) reads = .done true p' (pkts.map fun q => (q.kind, q.bytes)) ∧
      p'.state = .type := by
  rw [feed_bytewise reads _ hreads, hstream]
  obtain ⟨p', h1, h2, -⟩ := feed_packets pkts hwf (init recovery) rfl
  exact ⟨p', h1, h2⟩

/-- **C01.** The same from any state in which the parser waits for a type octet, for instance after
a recovery or after earlier packets. -/
theorem C01_packets_delivered_from_idle (p : Parser) (hp : p.state = .type) (pkts : List Packet)
    (hwf : ∀ q ∈ pkts, q.WellFormed) (reads : List (List UInt8))
    (hreads : Respects p reads) (hstream : reads.flatten = encodeAll pkts) :
    ∃ p', feed p reads = .done true p' (pkts.map fun q => (q.kind, q.bytes)) ∧
      p'.state = .type ∧ p'.recovery = p.recovery := by
  rw [feed_bytewise reads _ hreads, hstream]
  exact feed_packets pkts hwf p hp

/-- **C01.** Whatever the stream (well formed or not) and the state, two ways of cutting the same
stream have the same effect: same callbacks, same final state, same aborts. -/
theorem C01_chunking_irrelevant (p : Parser) (r1 r2 : List (List UInt8))
    (h1 : Respects p r1) (h2 : Respects p r2) (h : r1.flatten = r2.flatten) :
    feed p r1 = feed p r2 := by
  rw [feed_bytewise r1 p h1, feed_bytewise r2 p h2, h]

/-- Two packets cut across their boundaries' insides. -/
def exampleReads : List (List UInt8) :=
  [[1], [0x03, 0x0c], [0x01], [0xaa], [2], [0x01], [0x20, 0x02, 0x00], [7], [8]]

example : encodeAll [.command 0x03 0x0c [0xaa], .acl 0x01 0x20 [7, 8]] = exampleReads.flatten := by
  decide

example : feed (init true) exampleReads =
    .done true { init true with lastType := 2, packet := [1, 32, 2, 0, 7, 8] }
      [(.command, [3, 12, 1, 0xaa]), (.acl, [1, 32, 2, 0, 7, 8])] := by decide

/-- `Respects` can be evaluated, which the example below uses. -/
instance decRespects : ∀ (p : Parser) (cs : List (List UInt8)), Decidable (Respects p cs)
  | _, [] => isTrue trivial
  | p, c :: cs =>
    match h : consume p c with
    | .done r p' ev =>
      have := decRespects p' cs
      decidable_of_iff (c ≠ [] ∧ c.length ≤ requested p ∧ Respects p' cs) (by
        simp only [Respects, h]
        constructor
        · rintro ⟨h1, h2, h3⟩
          refine ⟨h1, h2, ?_⟩
          intro r' q ev' heq
          cases heq
          exact h3
        · rintro ⟨h1, h2, h3⟩
          exact ⟨h1, h2, h3 _ _ _ rfl⟩)
    | .abort => decidable_of_iff (c ≠ [] ∧ c.length ≤ requested p) (by simp [Respects, h])
    | .ub => decidable_of_iff (c ≠ [] ∧ c.length ≤ requested p) (by simp [Respects, h])

example : Respects (init true) exampleReads := by decide +kernel

/-- **C02.** After an unknown type octet, as long as the bytes received do not contain the HCI
Reset command, no callback is invoked and the parser keeps recovering. -/
theorem C02_silent_until_reset (p : Parser) (hp : p.state = .type) (hrec : p.recovery = true)
    (bad : UInt8) (hbad : kindOf bad = none) (bs : List UInt8) (hno : ¬ resetPattern <:+: bs)
    (reads : List (List UInt8)) (hreads : Respects p reads) (hstream : reads.flatten = bad :: bs) :
    ∃ p', feed p reads = .done true p' [] ∧ p'.state = .recovery := by
  rw [feed_bytewise reads p hreads, hstream]
  obtain ⟨p1, h1, h2, -⟩ := rec_enter p bad hp hrec hbad
  obtain ⟨p2, h3, h4, -⟩ := rec_run bs [] p1 h2 (by simpa using hno)
  refine ⟨p2, ?_, h4.state⟩
  simp only [bytewise, List.map_cons] at *
  rw [feed_cons, h1]
  simp [Outcome.andThen, h3]

/-- **C02.** At the end of the first occurrence of the HCI Reset command, exactly this command is
delivered and the parser is back to normal operation: whatever packets follow are delivered. -/
theorem C02_resync_at_first_reset (p : Parser) (hp : p.state = .type) (hrec : p.recovery = true)
    (bad : UInt8) (hbad : kindOf bad = none) (garbage : List UInt8)
    (hfirst : ¬ resetPattern <:+: (garbage ++ resetPattern).dropLast)
    (pkts : List Packet) (hwf : ∀ q ∈ pkts, q.WellFormed)
    (reads : List (List UInt8)) (hreads : Respects p reads)
    (hstream : reads.flatten = bad :: (garbage ++ resetPattern ++ encodeAll pkts)) :
    ∃ p', feed p reads =
        .done true p' ((.command, [0x03, 0x0c, 0x00]) :: pkts.map fun q => (q.kind, q.bytes)) ∧
      p'.state = .type := by
  rw [feed_bytewise reads p hreads, hstream]
  obtain ⟨p1, h1, h2, h2'⟩ := rec_enter p bad hp hrec hbad
  have hdl : (garbage ++ resetPattern).dropLast = garbage ++ [1, 3, 12] := by
    rw [resetPattern, List.dropLast_append_of_ne_nil (by simp)]; rfl
  rw [hdl] at hfirst
  obtain ⟨p2, h3, h4, h4'⟩ := rec_run (garbage ++ [1, 3, 12]) [] p1 h2 (by simpa using hfirst)
  rcases rec_step _ p2 0 h4 with ⟨-, p3, h5, h6, h6'⟩ | ⟨hn, -⟩
  · obtain ⟨p4, h7, h8, -⟩ := feed_packets pkts hwf p3 h6
    refine ⟨p4, ?_, h8⟩
    have : bad :: (garbage ++ resetPattern ++ encodeAll pkts) =
        [bad] ++ ((garbage ++ [1, 3, 12]) ++ ([0] ++ encodeAll pkts)) := by
      simp [resetPattern]
    rw [this]
    simp only [bytewise, List.map_append] at h3 h7 ⊢
    simp only [List.map_cons, List.map_nil] at h3 ⊢
    rw [feed_append, feed_single p [bad] (by simp), h1]
    simp only [Outcome.andThen]
    rw [feed_append, h3]
    simp only [Outcome.andThen]
    rw [feed_append, feed_single p2 [0] (by simp), h5]
    simp only [Outcome.andThen]
    rw [h7]
    simp
  · exfalso
    apply hn
    refine ⟨garbage, by simp [resetPattern]⟩

/-- Garbage containing a false start of the pattern is handled. -/
example : feed (init true) [[0x99], [1], [3], [1], [3], [0x0c], [0]] =
    .done true { init true with lastType := 0x99, packet := [3, 12, 0] }
      [(.command, [3, 12, 0])] := by decide

example : ¬ resetPattern <:+: (([1, 3] : List UInt8) ++ resetPattern).dropLast := by decide

/-- States a transport can bring the parser into. -/
inductive Reachable (recovery : Bool) : Parser → Prop where
  | init : Reachable recovery (init recovery)
  | step {p c r p' ev} : Reachable recovery p → c.length ≤ requested p →
      consume p c = .done r p' ev → Reachable recovery p'
  | reset {p} : Reachable recovery p → Reachable recovery (reset p)

theorem Reachable.inv {recovery p} (h : Reachable recovery p) :
    Inv p ∧ p.recovery = recovery := by
  induction h with
  | init => exact ⟨trivial, rfl⟩
  | @step p c r p' ev _ hle hc ih =>
    by_cases hne : c = []
    · subst hne
      simp [consume] at hc
      exact hc.2.1 ▸ ih
    · rcases inv_consume p c ih.1 hne hle with ⟨q, ev', h1, h2, h3⟩ | ⟨h1, -⟩
      · rw [hc] at h1
        obtain ⟨-, rfl, -⟩ := by simpa using h1
        exact ⟨h2, h3.trans ih.2⟩
      · rw [hc] at h1; simp at h1
  | reset _ ih => exact ⟨trivial, ih.2⟩

/-- **C03.** The parser always asks for at least one byte. -/
theorem C03_always_requests (recovery : Bool) (p : Parser) (h : Reachable recovery p) :
    1 ≤ requested p := by
  obtain ⟨hi, -⟩ := h.inv
  obtain ⟨st, ty, lt, pk, w, rec⟩ := p
  cases st with
  | type => simp [requested]
  | recovery => simp [requested]
  | preamble => obtain ⟨k, -, hw, -⟩ := hi; exact hw
  | payload => obtain ⟨k, -, hw⟩ := hi; exact hw

/-- **C03.** With recovery enabled no admissible read aborts or reads out of bounds. -/
theorem C03_no_abort_with_recovery (p : Parser) (h : Reachable true p) (c : List UInt8)
    (hle : c.length ≤ requested p) : ∃ r p' ev, consume p c = .done r p' ev := by
  obtain ⟨hi, hr⟩ := h.inv
  by_cases hne : c = []
  · subst hne; exact ⟨_, _, _, rfl⟩
  · rcases inv_consume p c hi hne hle with ⟨q, ev', h1, -⟩ | ⟨-, h2, -⟩
    · exact ⟨_, _, _, h1⟩
    · rw [hr] at h2; simp at h2

/-- **C03.** Without recovery the only admissible read that aborts is an unknown type octet read
where a type octet is expected. -/
theorem C03_abort_only_on_unknown_type (recovery : Bool) (p : Parser) (h : Reachable recovery p)
    (c : List UInt8) (hle : c.length ≤ requested p) :
    (∃ r p' ev, consume p c = .done r p' ev) ∨
    (consume p c = .abort ∧ recovery = false ∧ p.state = .type ∧
      ∃ b : UInt8, c = [b] ∧ b ∉ [1, 2, 3, 4, 5]) := by
  obtain ⟨hi, hr⟩ := h.inv
  by_cases hne : c = []
  · subst hne; exact Or.inl ⟨_, _, _, rfl⟩
  · rcases inv_consume p c hi hne hle with ⟨q, ev', h1, -⟩ | ⟨h1, h2, h3, b, h4, h5⟩
    · exact Or.inl ⟨_, _, _, h1⟩
    · refine Or.inr ⟨h1, hr ▸ h2, h3, b, h4, ?_⟩
      intro hb
      simp only [List.mem_cons, List.not_mem_nil, or_false] at hb
      rcases hb with rfl | rfl | rfl | rfl | rfl <;> simp [kindOf] at h5

/-- **C03.** A failed read (zero or fewer bytes) changes nothing and is reported. -/
theorem C03_empty_read (p : Parser) : consume p [] = .done false p [] := rfl

/-- A reachable state in the middle of a payload. -/
example : Reachable false ⟨.payload, 2, 2, [1, 0x20, 2, 0, 7], 1, false⟩ := by
  have h0 := Reachable.init (recovery := false)
  have h1 := Reachable.step h0 (c := [2]) (by decide) (by decide +kernel :
    consume (init false) [2] = .done true ⟨.preamble, 2, 2, [], 4, false⟩ [])
  have h2 := Reachable.step h1 (c := [1, 0x20, 2, 0]) (by decide) (by decide +kernel :
    consume ⟨.preamble, 2, 2, [], 4, false⟩ [1, 0x20, 2, 0] = .done true ⟨.payload, 2, 2, [1, 0x20, 2, 0], 2, false⟩ [])
  exact Reachable.step h2 (c := [7]) (r := true) (ev := []) (by decide) (by decide +kernel)

end Verif.H4
