import Verif.Sock.Spec
import Mathlib.Data.List.Basic
/-! # Helper lemmas for C15 -/

namespace Verif.Sock

/-- The length field of a packet. -/
def lenField (p : Bytes) : Bytes :=
  [UInt8.ofNat (p.length % 256), UInt8.ofNat (p.length / 256 % 256), UInt8.ofNat (p.length / 65536 % 256),
    UInt8.ofNat (p.length / 16777216 % 256)]

theorem frame_eq (p : Bytes) : frame p = lenField p ++ p := rfl

theorem lenField_length (p : Bytes) : (lenField p).length = 4 := rfl

theorem le32_lenField (p : Bytes) (h : p.length < 2 ^ 32) : le32 (lenField p) = p.length := by
  simp only [lenField, le32, UInt8.toNat_ofNat']
  omega

theorem put32_eq (p : Bytes) : put32 p.length = lenField p := by
  have h : ∀ n, UInt8.ofNat (n % 256) = UInt8.ofNat n := by
    intro n
    apply UInt8.toNat.inj
    simp
  simp [put32, lenField, h]

/-- Between two packets or inside a length field: `pre` are the bytes of it that were read. -/
def SizeInv (ps : List Bytes) (s : Dev) : Prop :=
  s.receivingSize = true ∧ s.size.length = 4 ∧ s.offset < 4 ∧ s.bytesLeft = 4 - s.offset ∧
  ∃ todo, ps = s.delivered ++ todo ∧ s.size.take s.offset ++ s.stream = todo.flatMap frame

/-- Inside a packet. -/
def BodyInv (ps : List Bytes) (s : Dev) : Prop :=
  s.receivingSize = false ∧ s.size.length = 4 ∧
  ∃ p todo, ps = s.delivered ++ p :: todo ∧ s.received.length = p.length ∧ s.offset < p.length ∧
    s.received.take s.offset = p.take s.offset ∧ s.bytesLeft = p.length - s.offset ∧
    s.stream = p.drop s.offset ++ todo.flatMap frame

def Inv (ps : List Bytes) (s : Dev) : Prop := SizeInv ps s ∨ BodyInv ps s

theorem recv_got {st : Bytes} {n : Nat} {a : Avail} {bytes rest : Bytes} (h : recv st n a = .got bytes rest) :
    ∃ k, a = .data k ∧ bytes = st.take (min n k) ∧ rest = st.drop (min n k) ∧ bytes ≠ [] ∧ n ≠ 0 := by
  cases a with
  | eof => simp [recv] at h
  | data k =>
    simp only [recv] at h
    split at h
    · cases h
    · split at h
      · cases h
      · rename_i h1 h2
        cases h
        exact ⟨k, rfl, rfl, rfl, by simpa using h2, h1⟩

theorem recv_got_append {st : Bytes} {n : Nat} {a : Avail} {bytes rest : Bytes}
    (h : recv st n a = .got bytes rest) : st = bytes ++ rest ∧ bytes ≠ [] ∧ bytes.length ≤ n := by
  obtain ⟨k, _, rfl, rfl, h3, _⟩ := recv_got h
  exact ⟨(List.take_append_drop _ _).symm, h3, by rw [List.length_take]; omega⟩

theorem recv_closed {st : Bytes} {n : Nat} {a : Avail} (hn : n ≠ 0) (ha : a ≠ .eof) : recv st n a ≠ .closed := by
  cases a with
  | eof => exact absurd rfl ha
  | data k =>
    simp only [recv, if_neg hn]
    split <;> simp

theorem write_some {buf bytes b : Bytes} {o : Nat} (h : write buf o bytes = some b) :
    o + bytes.length ≤ buf.length ∧ b.length = buf.length ∧
      b.take (o + bytes.length) = buf.take o ++ bytes := by
  unfold write at h
  split at h
  · rename_i hle
    cases h
    refine ⟨hle, ?_, ?_⟩
    · simp only [List.length_append, List.length_take, List.length_drop]; omega
    · rw [List.take_left' (by rw [List.length_append, List.length_take]; omega)]
  · cases h

theorem tickBody_inv {ps : List Bytes} {s : Dev} {a : Avail} (h : BodyInv ps s) :
    ∃ s', tickBody s a = some s' ∧ Inv ps s' ∧
      (s'.closed = true → s.closed = true ∨ a = .eof) := by
  obtain ⟨hr, hsz, p, todo, hps, hlen, hoff, htk, hbl, hst⟩ := h
  unfold tickBody
  cases hrc : recv s.stream s.bytesLeft a with
  | again => exact ⟨s, rfl, Or.inr ⟨hr, hsz, p, todo, hps, hlen, hoff, htk, hbl, hst⟩, fun h => Or.inl h⟩
  | closed =>
    refine ⟨_, rfl, Or.inr ⟨hr, hsz, p, todo, hps, hlen, hoff, htk, hbl, hst⟩, fun _ => Or.inr ?_⟩
    by_contra ha
    exact recv_closed (by omega) ha hrc
  | got bytes rest =>
    obtain ⟨happ, hne, hle⟩ := recv_got_append hrc
    have hle' : s.offset + bytes.length ≤ p.length := by omega
    have hpb : p.drop s.offset = bytes ++ (p.drop s.offset).drop bytes.length ∧
        rest = (p.drop s.offset).drop bytes.length ++ todo.flatMap frame := by
      have h1 : bytes ++ rest = p.drop s.offset ++ todo.flatMap frame := by rw [← happ, hst]
      have hb : bytes = (p.drop s.offset).take bytes.length := by
        have := congrArg (List.take bytes.length) h1
        rw [List.take_left, List.take_append_of_le_length (by rw [List.length_drop]; omega)] at this
        exact this
      constructor
      · conv_lhs => rw [← List.take_append_drop bytes.length (p.drop s.offset)]
        rw [← hb]
      · have := congrArg (List.drop bytes.length) h1
        rw [List.drop_left, List.drop_append_of_le_length (by rw [List.length_drop]; omega)] at this
        exact this
    have hw : ∃ b, write s.received s.offset bytes = some b := by
      unfold write
      rw [if_pos (by omega)]
      exact ⟨_, rfl⟩
    obtain ⟨b, hb⟩ := hw
    obtain ⟨_, hbl', hbt⟩ := write_some hb
    have htk' : b.take (s.offset + bytes.length) = p.take (s.offset + bytes.length) := by
      rw [hbt, htk, List.take_add]
      congr 1
      conv_rhs => rw [hpb.1]
      rw [List.take_left]
    simp only [hb]
    by_cases hlt : bytes.length < s.bytesLeft
    · rw [if_pos hlt]
      refine ⟨_, rfl, Or.inr ⟨hr, hsz, p, todo, hps, by simp [hbl', hlen], by simp; omega, htk', by simp; omega, ?_⟩,
        fun h => Or.inl h⟩
      simp only
      rw [hpb.2, List.drop_drop]
    · rw [if_neg hlt]
      have hfull : s.offset + bytes.length = p.length := by omega
      have hbp : b = p := by
        rw [hfull] at htk'
        rwa [List.take_of_length_le (by omega), List.take_of_length_le (by omega)] at htk'
      refine ⟨_, rfl, Or.inl ⟨rfl, hsz, by simp, rfl, todo, ?_, ?_⟩, fun h => Or.inl h⟩
      · simp [hps, hbp]
      · simp only [List.take_zero, List.nil_append]
        rw [hpb.2, List.drop_drop, hfull, List.drop_length, List.nil_append]

theorem size_complete {ps : List Bytes} (hv : ∀ p ∈ ps, Valid p) {s : Dev} {todo : List Bytes}
    {bytes rest buf : Bytes} (hps : ps = s.delivered ++ todo)
    (hcat : s.size.take s.offset ++ s.stream = todo.flatMap frame)
    (hstr : s.stream = bytes ++ rest) (hne : bytes ≠ []) (hb : buf = s.size.take s.offset ++ bytes)
    (h4 : buf.length = 4) :
    ∃ p todo', todo = p :: todo' ∧ le32 buf = p.length ∧ rest = p ++ todo'.flatMap frame := by
  cases todo with
  | nil =>
    simp [hstr, hne] at hcat
  | cons p todo' =>
    refine ⟨p, todo', rfl, ?_⟩
    have h : buf ++ rest = lenField p ++ (p ++ todo'.flatMap frame) := by
      rw [hb, List.append_assoc, ← hstr, hcat]
      simp [frame_eq]
    obtain ⟨h1, h2⟩ := List.append_inj h (by rw [h4, lenField_length])
    refine ⟨?_, h2⟩
    rw [h1, le32_lenField]
    exact (hv p (by simp [hps])).2

theorem tick_inv {ps : List Bytes} (hv : ∀ p ∈ ps, Valid p) {s s' : Dev} {a1 a2 : Avail} (h : Inv ps s)
    (ht : tick s a1 a2 = some s') :
    Inv ps s' ∧ (s'.closed = true → s.closed = true ∨ a1 = .eof ∨ a2 = .eof) := by
  unfold tick at ht
  split at ht
  · cases ht; exact ⟨h, fun h => Or.inl h⟩
  rcases h with h | h
  · obtain ⟨hr, hsz, ho, hbl, todo, hps, hcat⟩ := h
    rw [if_pos hr] at ht
    cases hrc : recv s.stream 4 a1 with
    | again =>
      simp only [hrc, Option.some.injEq] at ht
      subst ht
      exact ⟨Or.inl ⟨hr, hsz, ho, hbl, todo, hps, hcat⟩, fun h => Or.inl h⟩
    | closed =>
      simp only [hrc, Option.some.injEq] at ht
      subst ht
      refine ⟨Or.inl ⟨hr, hsz, ho, hbl, todo, hps, hcat⟩, fun _ => Or.inr (Or.inl ?_)⟩
      by_contra ha
      exact recv_closed (by omega) ha hrc
    | got bytes rest =>
      obtain ⟨happ, hne, hle⟩ := recv_got_append hrc
      simp only [hrc] at ht
      cases hw : write s.size s.offset bytes with
      | none => simp [hw] at ht
      | some b =>
        obtain ⟨hfit, hbl', hbt⟩ := write_some hw
        simp only [hw] at ht
        by_cases hlt : bytes.length < s.bytesLeft
        · rw [if_pos hlt, Option.some.injEq] at ht
          subst ht
          refine ⟨Or.inl ⟨hr, by simp [hbl', hsz], by simp; omega, by simp; omega, todo, hps, ?_⟩, fun h => Or.inl h⟩
          simp only
          rw [hbt, List.append_assoc, ← happ, hcat]
        · rw [if_neg hlt] at ht
          have hb4 : b = s.size.take s.offset ++ bytes := by
            rw [← hbt, List.take_of_length_le (by omega)]
          obtain ⟨p, todo', rfl, hle32, hrest⟩ := size_complete hv hps hcat happ hne hb4 (by omega)
          have hp := hv p (by simp [hps])
          have hpl : 0 < p.length := by
            cases p with
            | nil => exact absurd rfl hp.1
            | cons x xs => simp
          have hB : BodyInv ps { s with size := b, stream := rest, bytesLeft := le32 b, received := List.replicate (le32 b) 0, offset := 0, receivingSize := false } := by
            refine ⟨rfl, by simp [hbl', hsz], p, todo', hps, ?_, hpl, by simp, by simpa using hle32, by simpa using hrest⟩
            simp [hle32]
          obtain ⟨s'', hs'', hi, hc⟩ := tickBody_inv (a := a2) hB
          rw [hs'', Option.some.injEq] at ht
          subst ht
          refine ⟨hi, fun h => ?_⟩
          rcases hc h with h | h
          · exact Or.inl h
          · exact Or.inr (Or.inr h)
  · rw [if_neg (by simp [h.1])] at ht
    obtain ⟨s'', hs'', hi, hc⟩ := tickBody_inv (a := a2) h
    rw [hs'', Option.some.injEq] at ht
    subst ht
    refine ⟨hi, fun h => ?_⟩
    rcases hc h with h | h
    · exact Or.inl h
    · exact Or.inr (Or.inr h)

theorem run_inv {ps : List Bytes} (hv : ∀ p ∈ ps, Valid p) (as : List (Avail × Avail)) : ∀ {s s' : Dev},
    Inv ps s → run s as = some s' →
    Inv ps s' ∧ ((∀ a ∈ as, NoEof a) → s'.closed = true → s.closed = true) := by
  induction as with
  | nil => intro s s' h hr; simp only [run, Option.some.injEq] at hr; subst hr; exact ⟨h, fun _ h => h⟩
  | cons a as ih =>
    intro s s' h hr
    obtain ⟨a1, a2⟩ := a
    simp only [run, Option.bind_eq_some_iff] at hr
    obtain ⟨t, ht, hr⟩ := hr
    obtain ⟨h1, h2⟩ := tick_inv hv h ht
    obtain ⟨h3, h4⟩ := ih h1 hr
    refine ⟨h3, fun hn hc => ?_⟩
    have := hn (a1, a2) (by simp)
    rcases h2 (h4 (fun a ha => hn a (by simp [ha])) hc) with h | h | h
    · exact h
    · exact absurd h this.1
    · exact absurd h this.2

theorem init_inv (ps : List Bytes) : Inv ps (Dev.init (ps.flatMap frame)) :=
  Or.inl ⟨rfl, rfl, by simp [Dev.init], rfl, ps, rfl, rfl⟩

end Verif.Sock
