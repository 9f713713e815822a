import Verif.Addr.Model
/-!
# Property C04: the text form of device addresses
-/

namespace Verif.Addr

/-! ## Specification -/

/-- The 22 hexadecimal digits. -/
def hexChars : List Char :=
  ['0','1','2','3','4','5','6','7','8','9','a','b','c','d','e','f','A','B','C','D','E','F']

/-- `s` is six two-character fields separated by colons, every character of which satisfies the
given predicates. -/
def Fields (P : Char → Char → Prop) (s : List Char) : Prop :=
  ∃ a b c d e f g h i j k l, s = [a,b,':',c,d,':',e,f,':',g,h,':',i,j,':',k,l] ∧
    P a b ∧ P c d ∧ P e f ∧ P g h ∧ P i j ∧ P k l

/-- A textual Bluetooth address: six pairs of hexadecimal digits separated by colons. -/
def IsHexAddress (s : List Char) : Prop := Fields (fun a b => a ∈ hexChars ∧ b ∈ hexChars) s

/-- The white space of the C locale: space, tab, line feed, vertical tab, form feed, carriage return. -/
def blanks : List Char := [' ', Char.ofNat 9, Char.ofNat 10, Char.ofNat 11, Char.ofNat 12, Char.ofNat 13]

/-- What the code accepts as a field: a hexadecimal digit, preceded by another one, a sign or a blank. -/
def FieldOk (a b : Char) : Prop :=
  b ∈ hexChars ∧ (a ∈ hexChars ∨ a = '+' ∨ a = '-' ∨ a ∈ blanks)

/-- The value of a hexadecimal digit: its place in `0123456789abcdef` or `0123456789ABCDEF`. -/
def digitValue (c : Char) : Option Nat :=
  match ['0','1','2','3','4','5','6','7','8','9','a','b','c','d','e','f'].idxOf? c with
  | some n => some n
  | none => ['0','1','2','3','4','5','6','7','8','9','A','B','C','D','E','F'].idxOf? c

/-- The byte a field stands for: two digits; or one digit after a plus sign or a blank; or one digit
after a minus sign, which is negated modulo 256. -/
def fieldValue (a b : Char) : Option Nat :=
  match digitValue b with
  | none => none
  | some y =>
    match digitValue a with
    | some x => some (16 * x + y)
    | none => if a = '-' then some ((256 - y) % 256) else if a = '+' ∨ a ∈ blanks then some y else none

/-! ## Lemmas -/

theorem isSpace_iff (a : Char) : isSpace a = true ↔ a ∈ blanks := by
  have h1 : (Char.ofNat 9) = '\t' := by decide
  have h2 : (Char.ofNat 10) = '\n' := by decide
  have h3 : (Char.ofNat 11) = '\x0b' := by decide
  have h4 : (Char.ofNat 12) = '\x0c' := by decide
  have h5 : (Char.ofNat 13) = '\r' := by decide
  simp [isSpace, blanks, h1, h2, h3, h4, h5, or_assoc]

theorem field_hexByte_fin : ∀ n : Fin 256,
    parseField (hexByte (UInt8.ofNat n.val)) = some (UInt8.ofNat n.val) := by decide +kernel

theorem field_hexByte (b : UInt8) : parseField (hexByte b) = some b := by
  have h := field_hexByte_fin ⟨b.toNat, b.toNat_lt⟩
  simpa using h

theorem hexDigit_ne_colon (n : Nat) : hexDigit n ≠ ':' := by
  unfold hexDigit
  by_cases h : n < 16
  · have : ∀ m : Fin 16, ['0','1','2','3','4','5','6','7','8','9','a','b','c','d','e','f'].getD m.val '?' ≠ ':' := by
      decide
    exact this ⟨n, h⟩
  · rw [List.getD_eq_getElem?_getD, List.getElem?_eq_none (by simp; omega)]
    decide

theorem tokens_pair (a b : Char) (ha : a ≠ ':') (hb : b ≠ ':') (rest : List Char) :
    tokens (a :: b :: ':' :: rest) = [a, b] :: tokens rest := by
  simp [tokens, ha, hb]

theorem tokens_last (a b : Char) (ha : a ≠ ':') (hb : b ≠ ':') :
    tokens [a, b] = [[a, b]] := by
  simp [tokens, ha, hb]

theorem fromString_fields (a b c d e f g h i j k l : Char)
    (ha : a ≠ ':') (hb : b ≠ ':') (hc : c ≠ ':') (hd : d ≠ ':') (he : e ≠ ':') (hf : f ≠ ':')
    (hg : g ≠ ':') (hh : h ≠ ':') (hi : i ≠ ':') (hj : j ≠ ':') (hk : k ≠ ':') (hl : l ≠ ':')
    (v5 v4 v3 v2 v1 v0 : UInt8)
    (h5 : parseField [a, b] = some v5) (h4 : parseField [c, d] = some v4)
    (h3 : parseField [e, f] = some v3) (h2 : parseField [g, h] = some v2)
    (h1 : parseField [i, j] = some v1) (h0 : parseField [k, l] = some v0) :
    fromString [a,b,':',c,d,':',e,f,':',g,h,':',i,j,':',k,l] = some ⟨v0, v1, v2, v3, v4, v5⟩ := by
  unfold fromString
  rw [tokens_pair a b ha hb, tokens_pair c d hc hd, tokens_pair e f he hf, tokens_pair g h hg hh,
    tokens_pair i j hi hj, tokens_last k l hk hl]
  simp [parseLoop, h5, h4, h3, h2, h1, h0, Address.setFromEnd]

/-! ## The string a sequence of tokens comes from -/

/-- Length of the pieces plus separators. -/
theorem tokens_pairs : ∀ (n : Nat) (s : List Char), s.length = 3 * n + 2 →
    (∀ t ∈ tokens s, t.length = 2) → (tokens s).length = n + 1 →
    (∃ a b, a ≠ ':' ∧ b ≠ ':' ∧ ((n = 0 ∧ s = [a, b]) ∨
      ∃ rest, s = a :: b :: ':' :: rest ∧ tokens s = [a, b] :: tokens rest)) := by
  intro n s hl ht hn
  match s, hl with
  | a :: b :: rest, hl =>
    by_cases ha : a = ':'
    · subst ha
      have := ht [] (by simp [tokens])
      simp at this
    by_cases hb : b = ':'
    · subst hb
      have := ht [a] (by simp [tokens, ha])
      simp at this
    match rest, hl with
    | [], hl => exact ⟨a, b, ha, hb, Or.inl ⟨by simp at hl; omega, rfl⟩⟩
    | c :: rest, hl =>
      by_cases hc : c = ':'
      · subst hc
        exact ⟨a, b, ha, hb, Or.inr ⟨rest, rfl, tokens_pair a b ha hb rest⟩⟩
      · exfalso
        have h3 : ∃ t ts, tokens (c :: rest) = t :: ts ∧ 1 ≤ t.length := by
          cases rest with
          | nil => exact ⟨[c], [], by simp [tokens, hc], by simp⟩
          | cons d rest' =>
            by_cases hd : d = ':'
            · subst hd; exact ⟨[c], tokens rest', by simp [tokens, hc], by simp⟩
            · cases h : tokens (d :: rest') with
              | nil => exact ⟨[c], [], by rw [tokens]; simp [hc, hd, h], by simp⟩
              | cons t ts =>
                exact ⟨c :: t, ts, by rw [tokens]; simp [hc, hd, h], by simp⟩
        obtain ⟨t, ts, h3, h4⟩ := h3
        have h5 : tokens (a :: b :: c :: rest) = (a :: b :: t) :: ts := by
          rw [tokens]
          simp only [ha, if_false, hb]
          rw [tokens]
          simp [hb, hc, h3]
        have := ht (a :: b :: t) (by rw [h5]; simp)
        simp only [List.length_cons] at this
        omega

theorem parseField_length (t v) (h : parseField t = some v) : t.length = 2 := by
  unfold parseField at h
  split at h
  · simp at h
  · omega

theorem parseLoop_some (ts : List (List Char)) : ∀ i a r, parseLoop ts i a = some r →
    i ≤ 6 → ts.length + i = 6 ∧ ∀ t ∈ ts, ∃ v, parseField t = some v := by
  induction ts with
  | nil => intro i a r h _; simp [parseLoop] at h; simp [h.1]
  | cons t ts ih =>
    intro i a r h hi
    simp only [parseLoop] at h
    split at h
    · simp at h
    · split at h
      · simp at h
      · rename_i v hv
        obtain ⟨h1, h2⟩ := ih _ _ _ h (by omega)
        refine ⟨by simp; omega, ?_⟩
        intro x hx
        rcases List.mem_cons.mp hx with rfl | hx
        · exact ⟨v, hv⟩
        · exact h2 x hx

theorem hexVal_range (c : Char) (v : Nat) (h : hexVal c = some v) : c ∈ hexChars := by
  have key : ∀ n : Fin 128, (hexVal (Char.ofNat n.val)).isSome = true → Char.ofNat n.val ∈ hexChars := by
    decide +kernel
  have hc : c.toNat < 128 := by
    unfold hexVal at h
    have e9 : ('9' : Char).toNat = 57 := rfl
    have ef : ('f' : Char).toNat = 102 := rfl
    have eF : ('F' : Char).toNat = 70 := rfl
    split at h
    · rename_i hh; have := hh.2; simp only [Char.le_def, UInt32.le_iff_toNat_le] at this
      change c.val.toNat < 128; have e : ('9' : Char).val.toNat = 57 := rfl; omega
    · split at h
      · rename_i hh; have := hh.2; simp only [Char.le_def, UInt32.le_iff_toNat_le] at this
        change c.val.toNat < 128; have e : ('f' : Char).val.toNat = 102 := rfl; omega
      · split at h
        · rename_i hh; have := hh.2; simp only [Char.le_def, UInt32.le_iff_toNat_le] at this
          change c.val.toNat < 128; have e : ('F' : Char).val.toNat = 70 := rfl; omega
        · simp at h
  have := key ⟨c.toNat, hc⟩
  simp only [Char.ofNat_toNat] at this
  apply this
  simp [h]

theorem parseField_sound (a b : Char) (v : UInt8) (h : parseField [a, b] = some v) :
    FieldOk a b := by
  have hn : (strtol16 [a, b]).2 = 2 := by
    unfold parseField at h
    simp only [List.length_cons, List.length_nil] at h
    split at h
    · simp at h
    · split at h
      · simp at h
      · split at h
        · simp at h
        · omega
  -- the last character must be a digit
  unfold strtol16 at hn
  by_cases hs : isSpace a = true
  · by_cases hs' : isSpace b = true
    · simp [countSpaces, hs, hs', digits] at hn
    · simp only [countSpaces, hs, hs', if_true] at hn
      refine ⟨?_, Or.inr (Or.inr (Or.inr ((isSpace_iff a).mp hs)))⟩
      by_cases hm : b = '-'
      · subst hm; simp [digits] at hn
      · by_cases hp : b = '+'
        · subst hp; simp [digits] at hn
        · simp [hm, hp, digits] at hn
          cases hv : hexVal b with
          | none => simp [hv] at hn
          | some v => exact hexVal_range b v hv
  · simp only [countSpaces, hs] at hn
    by_cases hm : a = '-'
    · subst hm
      simp [digits] at hn
      cases hv : hexVal b with
      | none => simp [hv] at hn
      | some v => exact ⟨hexVal_range b v hv, by simp⟩
    · by_cases hp : a = '+'
      · subst hp
        simp [digits] at hn
        cases hv : hexVal b with
        | none => simp [hv] at hn
        | some v => exact ⟨hexVal_range b v hv, by simp⟩
      · simp [hm, hp, digits] at hn
        cases hv : hexVal a with
        | none => simp [hv] at hn
        | some va =>
          simp [hv] at hn
          cases hvb : hexVal b with
          | none => simp [hvb] at hn
          | some vb => exact ⟨hexVal_range b vb hvb, Or.inl (hexVal_range a va hv)⟩

theorem hexPairs_ok : ∀ a ∈ hexChars, ∀ b ∈ hexChars,
    (parseField [a, b]).map hexByte = some [a.toLower, b.toLower] ∧ a ≠ ':' ∧ b ≠ ':' := by
  decide +kernel

theorem field_finite : ∀ a ∈ hexChars ++ ['+', '-'] ++ blanks, ∀ b ∈ hexChars,
    parseField [a, b] = (fieldValue a b).map UInt8.ofNat ∧ (fieldValue a b).isSome = true := by
  decide +kernel

theorem digitValue_mem (c : Char) (n : Nat) (h : digitValue c = some n) : c ∈ hexChars := by
  unfold digitValue at h
  split at h
  · rename_i m hm
    have := List.isSome_idxOf?.mp (Option.isSome_iff_exists.mpr ⟨m, hm⟩)
    simp only [List.mem_cons, List.not_mem_nil, or_false] at this
    simp only [hexChars, List.mem_cons, List.not_mem_nil, or_false]
    rcases this with h | h | h | h | h | h | h | h | h | h | h | h | h | h | h | h <;> simp [h]
  · have := List.isSome_idxOf?.mp (Option.isSome_iff_exists.mpr ⟨n, h⟩)
    simp only [List.mem_cons, List.not_mem_nil, or_false] at this
    simp only [hexChars, List.mem_cons, List.not_mem_nil, or_false]
    rcases this with h | h | h | h | h | h | h | h | h | h | h | h | h | h | h | h <;> simp [h]

theorem fieldOk_mem (a b : Char) (h : FieldOk a b) : a ∈ hexChars ++ ['+', '-'] ++ blanks := by
  rcases h.2 with h | h | h | h <;> simp [h]

/-- A field is read as the specification says. -/
theorem parseField_value (a b : Char) : parseField [a, b] = (fieldValue a b).map UInt8.ofNat := by
  by_cases h : FieldOk a b
  · exact (field_finite a (fieldOk_mem a b h) b h.1).1
  · have h1 : parseField [a, b] = none := by
      cases hp : parseField [a, b] with
      | none => rfl
      | some v => exact absurd (parseField_sound a b v hp) h
    have h2 : fieldValue a b = none := by
      unfold fieldValue
      cases hb : digitValue b with
      | none => rfl
      | some y =>
        have hb' := digitValue_mem b y hb
        cases ha : digitValue a with
        | some x => exact absurd ⟨hb', Or.inl (digitValue_mem a x ha)⟩ h
        | none =>
          have n1 : a ≠ '-' := fun e => h ⟨hb', Or.inr (Or.inr (Or.inl e))⟩
          have n2 : ¬ (a = '+' ∨ a ∈ blanks) := fun e => h ⟨hb', e.elim (fun e => Or.inr (Or.inl e)) (fun e => Or.inr (Or.inr (Or.inr e)))⟩
          simp [n1, n2]
    simp [h1, h2]

theorem fieldOk_ne_colon (a b : Char) (h : FieldOk a b) : a ≠ ':' ∧ b ≠ ':' := by
  constructor
  · rintro rfl; have := fieldOk_mem _ _ h; revert this; decide
  · rintro rfl; have := h.1; revert this; decide

theorem fieldValue_ok (a b : Char) (n : Nat) (h : fieldValue a b = some n) : FieldOk a b := by
  have := parseField_value a b
  rw [h] at this
  exact parseField_sound a b _ this

theorem fieldValue_lt : ∀ a ∈ hexChars ++ ['+', '-'] ++ blanks, ∀ b ∈ hexChars,
    (fieldValue a b).all (fun v => decide (v < 256)) = true := by
  decide +kernel

theorem parseField_toNat (a b : Char) (v : UInt8) : parseField [a, b] = some v ↔ fieldValue a b = some v.toNat := by
  rw [parseField_value]
  constructor
  · intro h
    rw [Option.map_eq_some_iff] at h
    obtain ⟨n, h1, h2⟩ := h
    have h3 := fieldValue_ok a b n h1
    have h4 := fieldValue_lt a (fieldOk_mem a b h3) b h3.1
    rw [h1] at h4
    simp at h4
    rw [h1, ← h2]
    simp [Nat.mod_eq_of_lt h4]
  · intro h
    rw [h]
    simp

/-! ## The property -/

/-- **C04.** Formatting then parsing gives the address back. -/
theorem C04_roundtrip (a : Address) : fromString (toString a) = some a := by
  obtain ⟨b0, b1, b2, b3, b4, b5⟩ := a
  exact fromString_fields _ _ _ _ _ _ _ _ _ _ _ _
    (hexDigit_ne_colon _) (hexDigit_ne_colon _) (hexDigit_ne_colon _) (hexDigit_ne_colon _)
    (hexDigit_ne_colon _) (hexDigit_ne_colon _) (hexDigit_ne_colon _) (hexDigit_ne_colon _)
    (hexDigit_ne_colon _) (hexDigit_ne_colon _) (hexDigit_ne_colon _) (hexDigit_ne_colon _)
    b5 b4 b3 b2 b1 b0 (field_hexByte b5) (field_hexByte b4) (field_hexByte b3) (field_hexByte b2)
    (field_hexByte b1) (field_hexByte b0)

/-- **C04.** Different addresses have different texts. -/
theorem C04_toString_injective (a b : Address) (h : toString a = toString b) : a = b := by
  have := C04_roundtrip a
  rw [h, C04_roundtrip b] at this
  simpa using this.symm

/-- **C04.** Every textual address in upper or lower case is accepted, and printing the result gives
the same text in lower case (so the digits were read in the right order). -/
theorem C04_hex_accepted (s : List Char) (h : IsHexAddress s) :
    ∃ a, fromString s = some a ∧ toString a = s.map Char.toLower := by
  obtain ⟨a, b, c, d, e, f, g, h, i, j, k, l, rfl, ⟨ha, hb⟩, ⟨hc, hd⟩, ⟨he, hf⟩, ⟨hg, hh⟩,
    ⟨hi, hj⟩, ⟨hk, hl⟩⟩ := h
  obtain ⟨p5, na, nb⟩ := hexPairs_ok a ha b hb
  obtain ⟨p4, nc, nd⟩ := hexPairs_ok c hc d hd
  obtain ⟨p3, ne, nf⟩ := hexPairs_ok e he f hf
  obtain ⟨p2, ng, nh⟩ := hexPairs_ok g hg h hh
  obtain ⟨p1, ni, nj⟩ := hexPairs_ok i hi j hj
  obtain ⟨p0, nk, nl⟩ := hexPairs_ok k hk l hl
  rw [Option.map_eq_some_iff] at p5 p4 p3 p2 p1 p0
  obtain ⟨v5, q5, r5⟩ := p5
  obtain ⟨v4, q4, r4⟩ := p4
  obtain ⟨v3, q3, r3⟩ := p3
  obtain ⟨v2, q2, r2⟩ := p2
  obtain ⟨v1, q1, r1⟩ := p1
  obtain ⟨v0, q0, r0⟩ := p0
  refine ⟨_, fromString_fields a b c d e f g h i j k l na nb nc nd ne nf ng nh ni nj nk nl
    v5 v4 v3 v2 v1 v0 q5 q4 q3 q2 q1 q0, ?_⟩
  have hcol : ':'.toLower = ':' := by decide
  simp [toString, Address.toList, joinColon, r5, r4, r3, r2, r1, r0, hcol]

example : IsHexAddress "3C:5A:B4:04:05:06".toList := by
  refine ⟨'3','C','5','A','B','4','0','4','0','5','0','6', by decide, ?_⟩
  decide

/-- **C04 (partial).** Whatever is accepted has 17 characters and six colon-separated fields of two
characters, the second being a hexadecimal digit and the first a hexadecimal digit, a sign or a white
space. The full property, that only hexadecimal addresses are accepted, is false: see
`C04_strict_parse_violated`. -/
theorem C04_accepted_shape_partial (s : List Char) (a : Address) (h : fromString s = some a) :
    s.length = 17 ∧ Fields FieldOk s := by
  unfold fromString at h
  split at h
  · simp at h
  rename_i hlen
  have hlen : s.length = 17 := by omega
  refine ⟨hlen, ?_⟩
  obtain ⟨h1, h2⟩ := parseLoop_some _ _ _ _ h (by omega)
  have h1 : (tokens s).length = 6 := by omega
  have h3 : ∀ t ∈ tokens s, t.length = 2 := fun t ht => by
    obtain ⟨v, hv⟩ := h2 t ht; exact parseField_length t v hv
  obtain ⟨a1, b1, _, _, (⟨h, -⟩ | ⟨r1, rfl, e1⟩)⟩ := tokens_pairs 5 s hlen h3 (by omega)
  · omega
  simp only [e1, List.mem_cons, List.length_cons, forall_eq_or_imp] at h1 h2 h3
  obtain ⟨a2, b2, _, _, (⟨h, -⟩ | ⟨r2, rfl, e2⟩)⟩ :=
    tokens_pairs 4 r1 (by simp at hlen; omega) h3.2 (by omega)
  · omega
  simp only [e2, List.mem_cons, List.length_cons, forall_eq_or_imp] at h1 h2 h3
  obtain ⟨a3, b3, _, _, (⟨h, -⟩ | ⟨r3, rfl, e3⟩)⟩ :=
    tokens_pairs 3 r2 (by simp at hlen; omega) h3.2.2 (by omega)
  · omega
  simp only [e3, List.mem_cons, List.length_cons, forall_eq_or_imp] at h1 h2 h3
  obtain ⟨a4, b4, _, _, (⟨h, -⟩ | ⟨r4, rfl, e4⟩)⟩ :=
    tokens_pairs 2 r3 (by simp at hlen; omega) h3.2.2.2 (by omega)
  · omega
  simp only [e4, List.mem_cons, List.length_cons, forall_eq_or_imp] at h1 h2 h3
  obtain ⟨a5, b5, _, _, (⟨h, -⟩ | ⟨r5, rfl, e5⟩)⟩ :=
    tokens_pairs 1 r4 (by simp at hlen; omega) h3.2.2.2.2 (by omega)
  · omega
  simp only [e5, List.mem_cons, List.length_cons, forall_eq_or_imp] at h1 h2 h3
  obtain ⟨a6, b6, n6, m6, (⟨-, rfl⟩ | ⟨r6, rfl, e6⟩)⟩ :=
    tokens_pairs 0 r5 (by simp at hlen; omega) h3.2.2.2.2.2 (by omega)
  · rw [tokens_last a6 b6 n6 m6] at h2
    simp only [List.mem_cons, List.not_mem_nil, or_false, forall_eq] at h2
    obtain ⟨⟨v1, p1⟩, ⟨v2, p2⟩, ⟨v3, p3⟩, ⟨v4, p4⟩, ⟨v5, p5⟩, ⟨v6, p6⟩⟩ := h2
    exact ⟨a1, b1, a2, b2, a3, b3, a4, b4, a5, b5, a6, b6, rfl, parseField_sound _ _ _ p1,
      parseField_sound _ _ _ p2, parseField_sound _ _ _ p3, parseField_sound _ _ _ p4,
      parseField_sound _ _ _ p5, parseField_sound _ _ _ p6⟩
  · simp at hlen

/-- **C04.** Exactly which texts are read, and as which address: the first field is the most significant
byte. -/
theorem C04_reads (s : List Char) (x : Address) :
    fromString s = some x ↔
    ∃ a b c d e f g h i j k l, s = [a,b,':',c,d,':',e,f,':',g,h,':',i,j,':',k,l] ∧
      fieldValue a b = some x.b5.toNat ∧ fieldValue c d = some x.b4.toNat ∧ fieldValue e f = some x.b3.toNat ∧
      fieldValue g h = some x.b2.toNat ∧ fieldValue i j = some x.b1.toNat ∧ fieldValue k l = some x.b0.toNat := by
  constructor
  · intro hs
    obtain ⟨-, a, b, c, d, e, f, g, h, i, j, k, l, rfl, o5, o4, o3, o2, o1, o0⟩ := C04_accepted_shape_partial s x hs
    have key : ∀ a b, FieldOk a b → ∃ v, parseField [a, b] = some v := by
      intro a b o
      obtain ⟨h1, h2⟩ := field_finite a (fieldOk_mem a b o) b o.1
      obtain ⟨n, hn⟩ := Option.isSome_iff_exists.mp h2
      exact ⟨UInt8.ofNat n, by rw [h1, hn]; rfl⟩
    obtain ⟨v5, p5⟩ := key a b o5
    obtain ⟨v4, p4⟩ := key c d o4
    obtain ⟨v3, p3⟩ := key e f o3
    obtain ⟨v2, p2⟩ := key g h o2
    obtain ⟨v1, p1⟩ := key i j o1
    obtain ⟨v0, p0⟩ := key k l o0
    have hf := fromString_fields a b c d e f g h i j k l (fieldOk_ne_colon a b o5).1 (fieldOk_ne_colon a b o5).2
      (fieldOk_ne_colon c d o4).1 (fieldOk_ne_colon c d o4).2 (fieldOk_ne_colon e f o3).1 (fieldOk_ne_colon e f o3).2
      (fieldOk_ne_colon g h o2).1 (fieldOk_ne_colon g h o2).2 (fieldOk_ne_colon i j o1).1 (fieldOk_ne_colon i j o1).2
      (fieldOk_ne_colon k l o0).1 (fieldOk_ne_colon k l o0).2 v5 v4 v3 v2 v1 v0 p5 p4 p3 p2 p1 p0
    rw [hs] at hf
    cases hf
    exact ⟨a, b, c, d, e, f, g, h, i, j, k, l, rfl, (parseField_toNat _ _ _).mp p5, (parseField_toNat _ _ _).mp p4,
      (parseField_toNat _ _ _).mp p3, (parseField_toNat _ _ _).mp p2, (parseField_toNat _ _ _).mp p1, (parseField_toNat _ _ _).mp p0⟩
  · rintro ⟨a, b, c, d, e, f, g, h, i, j, k, l, rfl, p5, p4, p3, p2, p1, p0⟩
    have q5 := fieldOk_ne_colon a b (fieldValue_ok _ _ _ p5)
    have q4 := fieldOk_ne_colon c d (fieldValue_ok _ _ _ p4)
    have q3 := fieldOk_ne_colon e f (fieldValue_ok _ _ _ p3)
    have q2 := fieldOk_ne_colon g h (fieldValue_ok _ _ _ p2)
    have q1 := fieldOk_ne_colon i j (fieldValue_ok _ _ _ p1)
    have q0 := fieldOk_ne_colon k l (fieldValue_ok _ _ _ p0)
    exact fromString_fields a b c d e f g h i j k l q5.1 q5.2 q4.1 q4.2 q3.1 q3.2 q2.1 q2.2 q1.1 q1.2 q0.1 q0.2 _ _ _ _ _ _
      ((parseField_toNat _ _ _).mpr p5) ((parseField_toNat _ _ _).mpr p4) ((parseField_toNat _ _ _).mpr p3)
      ((parseField_toNat _ _ _).mpr p2) ((parseField_toNat _ _ _).mpr p1) ((parseField_toNat _ _ _).mpr p0)

example : fieldValue '-' 'f' = some 0xf1 ∧ fieldValue 'a' 'B' = some 0xab ∧ fieldValue (Char.ofNat 11) '7' = some 7 ∧
    fieldValue '0' 'x' = none := by decide

/-- **C04.** The validity check accepts a text exactly when parsing it gives an address. -/
theorem C04_valid (s : List Char) : isValidAddress s = true ↔ ∃ x, fromString s = some x := by
  simp [isValidAddress, Option.isSome_iff_exists]

example : isValidAddress "3C:5A:B4:04:05:06".toList = true ∧ isValidAddress "3C:5A:B4:04:05:0".toList = false := by
  decide +kernel

/-- **C04 violated.** A string that is not a hexadecimal address is accepted: the sign (or a space) is
consumed by `strtol`, and `-f` is even read as the byte `f1`. -/
theorem C04_strict_parse_violated :
    ∃ s, ¬ IsHexAddress s ∧ fromString s = some ⟨0x06, 0x05, 0x04, 0x0b, 0x0a, 0xf1⟩ := by
  refine ⟨"-f:+a: b:04:05:06".toList, ?_, by decide +kernel⟩
  rintro ⟨a, b, c, d, e, f, g, h, i, j, k, l, heq, ⟨ha, -⟩, -⟩
  have : a = '-' := by
    have : "-f:+a: b:04:05:06".toList = ['-','f',':','+','a',':',' ','b',':','0','4',':','0','5',':','0','6'] := by
      decide
    rw [this] at heq
    simp at heq
    exact heq.1.symm
  subst this
  revert ha
  decide

/-- **C04 violated.** `FromString(from, to)` documents that `to` is not modified when the string is
invalid, but it is cleared. -/
theorem C04_invalid_leaves_target_violated :
    ∃ (s : List Char) (to : Address), fromString s = none ∧ (fromStringInto s to).2 ≠ to :=
  ⟨[], Address.any, by decide, by decide⟩

/-- **C04 (partial).** On success the two forms of `FromString` agree, and on failure the result is
`false` (but the target is cleared, not preserved). -/
theorem C04_into_partial (s : List Char) (to : Address) :
    (∃ a, fromString s = some a ∧ fromStringInto s to = (true, a)) ∨
    (fromString s = none ∧ fromStringInto s to = (false, ⟨0, 0, 0, 0, 0, 0⟩)) := by
  unfold fromStringInto
  cases h : fromString s with
  | none => exact Or.inr ⟨rfl, rfl⟩
  | some a => exact Or.inl ⟨a, rfl, rfl⟩

end Verif.Addr
