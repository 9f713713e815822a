import Verif.Test.Transport
/-!
# C42: the framing of the test channel
-/

namespace Verif.Test

/-! ## The format -/

/-- A string behind its length. -/
def encodeString (s : Bytes) : Bytes := UInt8.ofNat s.length :: s

/-- A command on the test channel: the name, the number of arguments, the arguments. -/
def encodeCommand (name : Bytes) (args : List Bytes) : Bytes :=
  encodeString name ++ UInt8.ofNat args.length :: args.flatMap encodeString

/-- A command that can be written in the format and is not the request to close. -/
structure Writable (name : Bytes) (args : List Bytes) : Prop where
  name_pos : name ≠ []
  name_open : name ≠ ascii "CLOSE_TEST_CHANNEL"
  name_len : name.length ≤ 255
  count : args.length ≤ 255
  arg_len : ∀ a ∈ args, a.length ≤ 255

/-- A client that reads a response: four bytes of length, least significant first, and the text. -/
def readResponse : Bytes → Option (Bytes × Bytes)
  | a :: b :: c :: d :: rest =>
    let n := a.toNat + 256 * b.toNat + 65536 * c.toNat + 16777216 * d.toNat
    if n ≤ rest.length then some (rest.take n, rest.drop n) else none
  | _ => none

/-! ## Commands -/

/-- All bytes still to be read. -/
def Sock.stream (s : Sock) : Bytes := s.buffer ++ s.later.flatten

/-- The socket is open, at least `l` can be read now, and `l ++ more` is all that is still to be read. -/
def Has (s : Sock) (l more : Bytes) : Prop :=
  s.isOpen = true ∧ ∃ x, s.buffer = l ++ x ∧ x ++ s.later.flatten = more

theorem recv_has {s : Sock} {l l' more : Bytes} (h : Has s (l ++ l') more) :
    (recv l.length s).1 = l ∧ Has (recv l.length s).2 l' more := by
  obtain ⟨ho, x, hb, hm⟩ := h
  have hl : (s.buffer ++ s.later.headD []) = l ++ (l' ++ (x ++ s.later.headD [])) := by
    rw [hb]; simp only [List.append_assoc]
  unfold recv
  rw [if_pos ho, hl, List.take_left' rfl, List.drop_left' rfl]
  refine ⟨rfl, rfl, x ++ s.later.headD [], rfl, ?_⟩
  rw [← hm, List.append_assoc]
  cases s.later <;> rfl

theorem recvByte_has {s : Sock} {b : UInt8} {l' more : Bytes} (h : Has s (b :: l') more) :
    (recvByte s).1 = b ∧ Has (recvByte s).2 l' more := by
  have := recv_has (l := [b]) h
  exact ⟨by unfold recvByte; rw [show (1 : Nat) = [b].length from rfl, this.1]; rfl, this.2⟩

theorem recvVector_has {s : Sock} {l l' more : Bytes} {n : Nat} (hn : n = l.length) (h : Has s (l ++ l') more) :
    (recvVector n s).1 = l ∧ Has (recvVector n s).2 l' more := by
  have := recv_has h
  subst hn
  refine ⟨?_, this.2⟩
  unfold recvVector
  simp only [this.1, Nat.sub_self, List.replicate_zero, List.append_nil]

theorem length_byte {l : Bytes} (h : l.length ≤ 255) : (UInt8.ofNat l.length).toNat = l.length := by
  simp only [UInt8.toNat_ofNat']
  omega

theorem recvArgs_has (args : List Bytes) (ha : ∀ a ∈ args, a.length ≤ 255) : ∀ {s : Sock} {l' more : Bytes},
    Has s (args.flatMap encodeString ++ l') more →
    (recvArgs args.length s).1 = args ∧ Has (recvArgs args.length s).2 l' more := by
  induction args with
  | nil => intro s l' more h; exact ⟨rfl, h⟩
  | cons a args ih =>
    intro s l' more h
    have h1 : Has s (UInt8.ofNat a.length :: (a ++ (args.flatMap encodeString ++ l'))) more := by
      simpa [List.flatMap_cons, encodeString] using h
    obtain ⟨b1, b2⟩ := recvByte_has h1
    obtain ⟨c1, c2⟩ := recvVector_has (n := (recvByte s).1.toNat) (by
      rw [b1]; exact length_byte (ha a List.mem_cons_self)) b2
    obtain ⟨d1, d2⟩ := ih (fun x hx => ha x (List.mem_cons_of_mem _ hx)) c2
    simp only [List.length_cons, recvArgs]
    exact ⟨by rw [c1, d1], d2⟩

theorem onCommandReady_has {name : Bytes} {args : List Bytes} (hw : Writable name args) {s : Sock} {l' more : Bytes}
    (h : Has s (encodeCommand name args ++ l') more) :
    (onCommandReady s).1 = .command name args ∧ Has (onCommandReady s).2 l' more := by
  have h1 : Has s ([UInt8.ofNat name.length] ++ (name ++ (UInt8.ofNat args.length :: (args.flatMap encodeString ++ l')))) more := by
    simpa [encodeCommand, encodeString] using h
  obtain ⟨b1, b2⟩ := recv_has h1
  simp only [List.length_cons, List.length_nil, Nat.zero_add] at b1 b2
  obtain ⟨c1, c2⟩ := recvVector_has (n := ((recv 1 s).1.headD 0).toNat) (by
    rw [b1]; exact length_byte hw.name_len) b2
  obtain ⟨d1, d2⟩ := recvByte_has c2
  obtain ⟨e1, e2⟩ := recvArgs_has args hw.arg_len d2
  have hn : ((UInt8.ofNat args.length).toNat) = args.length := by
    have := hw.count
    simp only [UInt8.toNat_ofNat']; omega
  have hc : ¬ (name = closeName ∨ name = []) := not_or.2 ⟨hw.name_open, hw.name_pos⟩
  have hl : ¬ ((recv 1 s).1.length ≠ 1) := by rw [b1]; simp
  simp only [onCommandReady]
  rw [if_neg hl, c1, if_neg hc]
  simp only [d1, hn]
  exact ⟨by rw [e1], e2⟩

/-- **C42 (commands).** When a command has arrived, it is decoded to exactly its name and its arguments, and what
follows it is left to be read. -/
theorem C42_command {name : Bytes} {args : List Bytes} (hw : Writable name args) (s : Sock) (rest : Bytes)
    (ho : s.isOpen = true) (hs : s.buffer = encodeCommand name args ++ rest) :
    (onCommandReady s).1 = .command name args ∧ (onCommandReady s).2.isOpen = true ∧
      (onCommandReady s).2.stream = rest ++ s.later.flatten := by
  obtain ⟨h1, h2, x, h3, h4⟩ := onCommandReady_has hw (s := s) (l' := rest) (more := s.later.flatten)
    ⟨ho, [], by rw [hs, List.append_nil], rfl⟩
  exact ⟨h1, h2, by rw [Sock.stream, h3, List.append_assoc, h4]⟩

/-- **C42 (several commands).** Commands that arrive together are decoded one after the other. -/
theorem C42_commands (cs : List (Bytes × List Bytes)) (hw : ∀ c ∈ cs, Writable c.1 c.2) (s : Sock) (rest : Bytes)
    (ho : s.isOpen = true) (hs : s.buffer = cs.flatMap (fun c => encodeCommand c.1 c.2) ++ rest) :
    (receiveMany cs.length s).1 = cs.map (fun c => .command c.1 c.2) ∧
      (receiveMany cs.length s).2.stream = rest ++ s.later.flatten := by
  have key : ∀ (cs : List (Bytes × List Bytes)), (∀ c ∈ cs, Writable c.1 c.2) → ∀ {s : Sock} {l' more : Bytes},
      Has s (cs.flatMap (fun c => encodeCommand c.1 c.2) ++ l') more →
      (receiveMany cs.length s).1 = cs.map (fun c => .command c.1 c.2) ∧ Has (receiveMany cs.length s).2 l' more := by
    intro cs
    induction cs with
    | nil => intro _ s l' more h; exact ⟨rfl, h⟩
    | cons c cs ih =>
      intro hw s l' more h
      rw [List.flatMap_cons, List.append_assoc] at h
      obtain ⟨h1, h2⟩ := onCommandReady_has (hw c List.mem_cons_self) h
      obtain ⟨g1, g2⟩ := ih (fun c hc => hw c (List.mem_cons_of_mem _ hc)) h2
      simp only [List.length_cons, receiveMany]
      exact ⟨by rw [h1, g1]; rfl, g2⟩
  obtain ⟨h1, h2, x, h3, h4⟩ := key cs hw (s := s) (l' := rest) (more := s.later.flatten)
    ⟨ho, [], by rw [hs, List.append_nil], rfl⟩
  exact ⟨h1, by rw [Sock.stream, h3, List.append_assoc, h4]⟩

/-- **C42 (closing).** The command to close, an empty name and the end of the stream close the channel. -/
theorem C42_close (s : Sock) (rest : Bytes) (ho : s.isOpen = true)
    (hs : s.buffer = encodeString (ascii "CLOSE_TEST_CHANNEL") ++ rest ∨ s.buffer = 0 :: rest ∨
      (s.buffer = [] ∧ s.later = [])) :
    (onCommandReady s).1 = .closed ∧ (onCommandReady s).2.isOpen = false := by
  rcases hs with hs | hs | ⟨hs, hl⟩
  · have h1 : Has s ([UInt8.ofNat closeName.length] ++ (closeName ++ rest)) s.later.flatten :=
      ⟨ho, [], by rw [hs, List.append_nil]; rfl, rfl⟩
    obtain ⟨b1, b2⟩ := recv_has h1
    simp only [List.length_cons, List.length_nil, Nat.zero_add] at b1 b2
    obtain ⟨c1, c2⟩ := recvVector_has (n := ((recv 1 s).1.headD 0).toNat) (by rw [b1]; decide +kernel) b2
    have hl : ¬ ((recv 1 s).1.length ≠ 1) := by rw [b1]; simp
    simp only [onCommandReady]
    rw [if_neg hl, c1, if_pos (Or.inl rfl)]
    exact ⟨rfl, rfl⟩
  · have h1 : Has s ([0] ++ ([] ++ rest)) s.later.flatten := ⟨ho, [], by rw [hs]; simp, rfl⟩
    obtain ⟨b1, b2⟩ := recv_has h1
    simp only [List.length_cons, List.length_nil, Nat.zero_add] at b1 b2
    obtain ⟨c1, c2⟩ := recvVector_has (n := ((recv 1 s).1.headD 0).toNat) (by rw [b1]; rfl) b2
    have hl : ¬ ((recv 1 s).1.length ≠ 1) := by rw [b1]; simp
    simp only [onCommandReady]
    rw [if_neg hl, c1, if_pos (Or.inr rfl)]
    exact ⟨rfl, rfl⟩
  · obtain ⟨o, b, l⟩ := s
    cases ho; cases hs; cases hl
    exact ⟨rfl, rfl⟩

/-- **C42, violated.** A command that arrives in two pieces is not decoded: the missing bytes are taken to be zero,
and the second piece is taken for another command. -/
theorem C42_split_violated : ∃ s : Sock, s.isOpen = true ∧ s.stream = encodeCommand (ascii "list") [] ∧
    s.buffer ≠ [] ∧ (onCommandReady s).1 = .command (ascii "li" ++ [0, 0]) [] ∧
    (onCommandReady (onCommandReady s).2).1 ≠ .command (ascii "list") [] :=
  ⟨⟨true, [4] ++ ascii "li", [[], [], [], ascii "st" ++ [0]]⟩, by decide +kernel⟩

/-! ## Responses -/

/-- **C42 (responses).** If the socket takes what is written, a client reads back exactly the response, cut to
65535 bytes, and nothing of it is left over. -/
theorem C42_response (response rest : Bytes) : ∃ bytes, sendResponse response .all .all = .sent bytes ∧
    readResponse (bytes ++ rest) = some (response.take 65535, rest) := by
  refine ⟨_, rfl, ?_⟩
  have hmin : min response.length 65535 ≤ response.length := Nat.min_le_left _ _
  have hmin2 : min response.length 65535 ≤ 65535 := Nat.min_le_right _ _
  have hn : (UInt8.ofNat (min response.length 65535)).toNat + 256 * (UInt8.ofNat (min response.length 65535 / 2 ^ 8)).toNat
      + 65536 * (UInt8.ofNat (min response.length 65535 / 2 ^ 16)).toNat
      + 16777216 * (UInt8.ofNat (min response.length 65535 / 2 ^ 24)).toNat = min response.length 65535 := by
    simp only [UInt8.toNat_ofNat']; omega
  have hlen : (response.take (min response.length 65535)).length = min response.length 65535 := by
    rw [List.length_take]; omega
  have htake : response.take (min response.length 65535) = response.take 65535 := by
    rw [List.take_eq_take_iff]
    omega
  simp only [le32, List.cons_append, List.nil_append, readResponse, hn]
  rw [if_pos (by rw [List.length_append, hlen]; omega), List.take_left' hlen, List.drop_left' hlen, htake]

/-- **C42 (responses).** A response of at most 65535 bytes arrives whole. -/
theorem C42_response_whole (response rest : Bytes) (h : response.length ≤ 65535) :
    ∃ bytes, sendResponse response .all .all = .sent bytes ∧
      readResponse (bytes ++ rest) = some (response, rest) := by
  obtain ⟨b, h1, h2⟩ := C42_response response rest
  exact ⟨b, h1, by rw [h2, List.take_of_length_le h]⟩

/-- **C47, violated.** If the client of the test channel is gone when a response is written, the process aborts. -/
theorem C47_client_gone_violated (response : Bytes) (w : Write) :
    sendResponse response .failed w = .aborted [] ∧ ∃ b, sendResponse response .all .failed = .aborted b :=
  ⟨rfl, _, rfl⟩

/-- **C47, violated.** If the socket takes only a part of the length or of the response, the process aborts; the client has a
part of what it would have got. -/
theorem C47_short_write_violated (response : Bytes) (n : Nat) (w : Write) :
    ∃ whole b b', sendResponse response .all .all = .sent whole ∧ sendResponse response (.short n) w = .aborted b ∧
      sendResponse response .all (.short n) = .aborted b' ∧ b <+: whole ∧ b' <+: whole ∧ (n ≤ 4 → b.length = n) := by
  refine ⟨_, _, _, rfl, rfl, rfl, ?_, ?_, ?_⟩
  · exact (List.take_prefix _ _).trans (List.prefix_append _ _)
  · exact List.prefix_append_right_inj _ |>.mpr (List.take_prefix _ _)
  · intro hn
    simp only [Write.bytes, List.length_take, le32]
    simp
    omega

example : sendResponse [65, 66, 67] .all (.short 2) = .aborted [3, 0, 0, 0, 65, 66] := by decide +kernel

/-! ## The hypotheses can be met -/

example : Writable (ascii "add_device_to_phy") [ascii "0", ascii "1"] :=
  ⟨by decide +kernel, by decide +kernel, by decide +kernel, by decide +kernel, by decide +kernel⟩

example : encodeCommand (ascii "del") [ascii "12"] = [3, 100, 101, 108, 1, 2, 49, 50] := by decide +kernel

example : sendResponse (ascii "ok") .all .all = .sent [2, 0, 0, 0, 111, 107] := by decide +kernel

end Verif.Test
