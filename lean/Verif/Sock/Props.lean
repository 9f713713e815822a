import Verif.Sock.Lemmas
/-! # C15: link-layer packets survive the socket -/

namespace Verif.Sock

/-- **C15, partial.** A peer writes the packets `ps` one after the other, each preceded by its length. However the
reads are split, as long as no read overruns the length buffer (the run has a result): the packets handed to the phy
are the first packets of `ps` unchanged, once each and in order; when the stream has been read they are all of `ps`;
and the device does not close by itself. Missing: reads may overrun, see `C15_overrun_violated`. -/
theorem C15_delivery_partial (ps : List Bytes) (hv : ∀ p ∈ ps, Valid p) (reads : List (Avail × Avail)) (s : Dev)
    (hr : run (Dev.init (ps.flatMap frame)) reads = some s) :
    s.delivered <+: ps ∧ (s.stream = [] → s.offset = 0 → s.receivingSize = true → s.delivered = ps) ∧
    ((∀ a ∈ reads, NoEof a) → s.closed = false) := by
  obtain ⟨hi, hc⟩ := run_inv hv reads (init_inv ps) hr
  refine ⟨?_, ?_, ?_⟩
  · rcases hi with ⟨_, _, _, _, todo, h, _⟩ | ⟨_, _, p, todo, h, _⟩
    · exact ⟨todo, h.symm⟩
    · exact ⟨p :: todo, h.symm⟩
  · intro hs ho hz
    rcases hi with ⟨_, _, _, _, todo, h, hcat⟩ | ⟨h, _⟩
    · rw [hs, ho] at hcat
      cases todo with
      | nil => simpa using h.symm
      | cons p todo => simp [frame] at hcat
    · rw [hz] at h; cases h
  · intro hn
    have := hc hn
    simpa [Dev.init] using this

/-- **C15.** When everything that was written has been read, every packet has been delivered. -/
theorem C15_all_delivered (ps : List Bytes) (hv : ∀ p ∈ ps, Valid p) (reads : List (Avail × Avail)) (s : Dev)
    (hr : run (Dev.init (ps.flatMap frame)) reads = some s) (hs : s.stream = []) :
    s.delivered = ps := by
  obtain ⟨hi, _⟩ := run_inv hv reads (init_inv ps) hr
  rcases hi with ⟨_, hz, ho, _, todo, h, hcat⟩ | ⟨_, _, p, todo, _, _, ho, _, _, hst⟩
  · rw [hs, List.append_nil] at hcat
    cases todo with
    | nil => simpa using h.symm
    | cons p todo =>
      have := congrArg List.length hcat
      simp only [List.length_take, hz, List.flatMap_cons, List.length_append, frame, List.length_cons] at this
      omega
  · rw [hs] at hst
    have := congrArg List.length hst
    simp only [List.length_nil, List.length_append, List.length_drop] at this
    omega

/-- **C15, partial.** If the read of a length always finds nothing or at least the four bytes of the length, no read
goes past a buffer, whatever the split of the packets themselves. -/
theorem C15_no_overrun_partial (ps : List Bytes) (hv : ∀ p ∈ ps, Valid p) (reads : List (Avail × Avail))
    (hw : ∀ a ∈ reads, Whole a) :
    ∃ s, run (Dev.init (ps.flatMap frame)) reads = some s := by
  have key : ∀ (as : List (Avail × Avail)) (s : Dev), (∀ a ∈ as, Whole a) → Inv ps s →
      (s.receivingSize = true → s.offset = 0) → ∃ s', run s as = some s' := by
    intro as
    induction as with
    | nil => intro s _ _ _; exact ⟨s, rfl⟩
    | cons a as ih =>
      intro s hw hi ho
      obtain ⟨a1, a2⟩ := a
      have ha := hw (a1, a2) (by simp)
      have hstep : ∃ t, tick s a1 a2 = some t ∧ (t.receivingSize = true → t.offset = 0) := by
        unfold tick
        by_cases hc : s.closed = true
        · rw [if_pos hc]; exact ⟨s, rfl, ho⟩
        rw [if_neg hc]
        have hbody : ∀ u, BodyInv ps u → ∃ t, tickBody u a2 = some t ∧ (t.receivingSize = true → t.offset = 0) := by
          intro u hu
          obtain ⟨t, ht, _⟩ := tickBody_inv (a := a2) hu
          refine ⟨t, ht, ?_⟩
          have hrf := hu.1
          unfold tickBody at ht
          split at ht
          · cases ht; intro h; rw [hrf] at h; cases h
          · cases ht; intro h; simp [hrf] at h
          · split at ht
            · cases ht
            · split at ht
              · cases ht; intro h; simp [hrf] at h
              · cases ht; intro _; rfl
        rcases hi with h | h
        · obtain ⟨hr, hsz, _, hbl, todo, hps, hcat⟩ := h
          have ho := ho hr
          rw [if_pos hr]
          cases hrc : recv s.stream 4 a1 with
          | again => exact ⟨s, rfl, fun _ => ho⟩
          | closed => exact ⟨_, rfl, fun _ => ho⟩
          | got bytes rest =>
            obtain ⟨k, rfl, hbk, hrk, hne, _⟩ := recv_got hrc
            obtain ⟨happ, _, hle⟩ := recv_got_append hrc
            have hwr : ∃ b, write s.size s.offset bytes = some b := by
              unfold write
              rw [if_pos (by omega)]
              exact ⟨_, rfl⟩
            obtain ⟨b, hb⟩ := hwr
            obtain ⟨hfit, hbl', hbt⟩ := write_some hb
            rw [ho] at hcat
            have hcat' : s.stream = todo.flatMap frame := by simpa using hcat
            have hk4 : 4 ≤ k := by
              rcases ha with h | h
              · subst h; simp at hbk; exact absurd hbk hne
              · exact h
            have hlen : bytes.length = 4 := by
              cases todo with
              | nil => simp only [List.flatMap_nil] at hcat'; simp [hcat'] at hbk; exact absurd hbk hne
              | cons p todo =>
                rw [hbk, List.length_take, hcat', List.flatMap_cons, List.length_append, frame_eq, List.length_append,
                  lenField_length]
                omega
            simp only [hb]
            rw [if_neg (by omega)]
            have hb4 : b = s.size.take s.offset ++ bytes := by
              rw [← hbt, List.take_of_length_le (by omega)]
            obtain ⟨p, todo', rfl, hle32, hrest⟩ :=
              size_complete hv hps (by rw [ho]; exact hcat) happ hne hb4 (by omega)
            have hp := hv p (by simp [hps])
            have hpl : 0 < p.length := by
              cases p with
              | nil => exact absurd rfl hp.1
              | cons x xs => simp
            apply hbody
            refine ⟨rfl, by simp [hbl', hsz], p, todo', hps, by simp [hle32], hpl, by simp, by simpa using hle32,
              by simpa using hrest⟩
        · rw [if_neg (by simp [h.1])]
          exact hbody s h
      obtain ⟨t, ht, hto⟩ := hstep
      obtain ⟨s', hs'⟩ := ih t (fun a ha => hw a (by simp [ha])) (tick_inv hv hi ht).1 hto
      exact ⟨s', by simp [run, ht, hs']⟩
  exact key reads _ hw (init_inv ps) (fun _ => rfl)

/-- Two packets, read in odd pieces. -/
def reads : List (Avail × Avail) := [(.data 4, .data 1), (.data 0, .data 5), (.data 9, .data 2)]

example : ∀ a ∈ reads, Whole a := by simp [reads, Whole]
example : (run (Dev.init ([[7, 8, 9], [1, 2]].flatMap frame)) reads).map (·.delivered) = some [[7, 8, 9], [1, 2]] := by
  decide +kernel

/-- **C15.** No packet waits: between packets, when the next packet has arrived a single tick delivers it. -/
theorem C15_progress (ps : List Bytes) (hv : ∀ p ∈ ps, Valid p) (reads : List (Avail × Avail)) (s : Dev)
    (hr : run (Dev.init (ps.flatMap frame)) reads = some s) (hopen : s.closed = false)
    (hsz : s.receivingSize = true) (hoff : s.offset = 0) (p : Bytes) (rest : List Bytes)
    (hps : ps = s.delivered ++ p :: rest) (k1 k2 : Nat) (hk1 : 4 ≤ k1) (hk2 : p.length ≤ k2) :
    ∃ s', tick s (.data k1) (.data k2) = some s' ∧ s'.delivered = s.delivered ++ [p] := by
  obtain ⟨hi, _⟩ := run_inv hv reads (init_inv ps) hr
  rcases hi with ⟨_, hz, _, hbl, todo, hps', hcat⟩ | ⟨h, _⟩
  · obtain rfl : todo = p :: rest := List.append_cancel_left (hps'.symm.trans hps)
    rw [hoff] at hcat
    have hst : s.stream = lenField p ++ (p ++ rest.flatMap frame) := by simpa [frame_eq] using hcat
    have hp := hv p (by simp [hps])
    have hrecv : recv s.stream 4 (.data k1) = .got (lenField p) (p ++ rest.flatMap frame) := by
      have : min 4 k1 = 4 := by omega
      simp only [recv, hst, this]
      rw [if_neg (by decide), List.take_left' (lenField_length p), List.drop_left' (lenField_length p)]
      rfl
    have hw : write s.size s.offset (lenField p) = some (lenField p) := by
      unfold write
      rw [hoff, if_pos (by rw [lenField_length]; omega)]
      simp only [List.take_zero, List.nil_append, Nat.zero_add, lenField_length]
      rw [List.drop_of_length_le (by omega), List.append_nil]
    have hpl : 0 < p.length := List.length_pos_iff.mpr hp.1
    have h2 : recv (p ++ rest.flatMap frame) p.length (.data k2) = .got p (rest.flatMap frame) := by
      have : min p.length k2 = p.length := by omega
      simp only [recv, this]
      rw [if_neg (by omega), List.take_left, List.drop_left, if_neg (by simp [hp.1])]
    have hw2 : write (List.replicate p.length 0) 0 p = some p := by
      unfold write
      rw [if_pos (by simp)]
      simp
    unfold tick
    rw [if_neg (by simp [hopen]), if_pos hsz]
    simp only [hrecv, hw]
    rw [if_neg (by rw [lenField_length]; omega), le32_lenField p hp.2]
    unfold tickBody
    simp only [h2, hw2]
    rw [if_neg (by omega)]
    exact ⟨_, rfl, rfl⟩
  · rw [hsz] at h; cases h

/-- **C15, violated.** A single valid packet: the first byte of its length arrives alone, then the rest arrives. The
second read asks for four bytes again and writes past the end of the four byte buffer. -/
theorem C15_overrun_violated : ∃ (ps : List Bytes) (reads : List (Avail × Avail)),
    (∀ p ∈ ps, Valid p) ∧ (∀ a ∈ reads, NoEof a) ∧ run (Dev.init (ps.flatMap frame)) reads = none := by
  refine ⟨[[7, 8, 9]], [(.data 1, .data 0), (.data 6, .data 0)], ?_, ?_, by decide +kernel⟩
  · simp [Valid]
  · simp [NoEof]

/-- **C15, violated.** The overrun does not depend on the packets: whenever the length of a packet is first read in
part and then found complete with the packet, the buffer is overrun. -/
theorem C15_overrun_always_violated (p : Bytes) (hp : Valid p) (rest : List Bytes) (k j : Nat) (hk : 0 < k)
    (hk4 : k < 4) (hj : 4 ≤ j) :
    run (Dev.init ((p :: rest).flatMap frame)) [(.data k, .data 0), (.data j, .data 0)] = none := by
  obtain ⟨x, q, rfl⟩ : ∃ x q, p = x :: q := by
    cases p with
    | nil => exact absurd rfl hp.1
    | cons x q => exact ⟨x, q, rfl⟩
  have hj' : min 4 j = 4 := by omega
  have : k = 1 ∨ k = 2 ∨ k = 3 := by omega
  rcases this with rfl | rfl | rfl
  all_goals
    simp only [Dev.init, List.flatMap_cons, frame, List.cons_append, List.nil_append, run, tick, recv, write]
    simp [hj']
    try rw [if_neg (by omega)]

/-- **C15, violated.** A packet of length zero closes the connection: the packets after it are lost. -/
theorem C15_empty_packet_closes_violated : ∃ s,
    run (Dev.init ([[], [1, 2]].flatMap frame)) [(.data 20, .data 20)] = some s ∧
    s.closed = true := by
  refine ⟨_, rfl, ?_⟩
  decide +kernel

/-- **C15.** The bytes written for a packet are its frame, provided the socket takes all of them. -/
theorem C15_send_frame (p : Bytes) (w1 w2 : Nat) (h1 : 4 ≤ w1) (h2 : p.length ≤ w2) : sendPacket p w1 w2 = frame p := by
  unfold sendPacket
  rw [if_pos h1, put32_eq, frame_eq, List.take_of_length_le h2]

example : sendPacket [1, 2, 3] 4 3 = [3, 0, 0, 0, 1, 2, 3] := by decide +kernel

/-- **C15.** End to end: packets sent by one process, when the socket takes every byte, are delivered in the other. -/
theorem C15_end_to_end (ps : List Bytes) (hv : ∀ p ∈ ps, Valid p) (reads : List (Avail × Avail)) (s : Dev)
    (hr : run (Dev.init (ps.flatMap (fun p => sendPacket p 4 p.length))) reads = some s) (hs : s.stream = []) :
    s.delivered = ps := by
  have : ps.flatMap (fun p => sendPacket p 4 p.length) = ps.flatMap frame := by
    congr 1; funext p; exact C15_send_frame p 4 _ (Nat.le_refl _) (Nat.le_refl _)
  rw [this] at hr
  exact C15_all_delivered ps hv reads s hr hs

/-- **C15, violated.** When the socket is full after the length has been written, the packet is dropped but its length
stays in the stream: the receiver takes the next frame for the body and never delivers the second packet. -/
theorem C15_full_socket_violated : ∃ s,
    run (Dev.init (sendPacket [1, 2, 3, 4, 5] 4 0 ++ sendPacket [6, 7, 8] 4 3)) [(.data 99, .data 99)] = some s ∧
    s.delivered = [[3, 0, 0, 0, 6]] ∧ s.stream = [7, 8] := by
  refine ⟨_, rfl, ?_⟩
  decide +kernel

end Verif.Sock
