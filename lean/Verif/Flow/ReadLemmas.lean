import Verif.Flow.Lemmas
/-! # Which octets are data packets -/
namespace Verif.Flow
open Pdl

theorem takeBits_append (w x : Nat) (r : List Bool) : takeBits w (bits w x ++ r) = some (bits w x, r) := by
  have h := bits_length w x
  rw [takeBits, if_neg (by simp [h]), List.take_left' h, List.drop_left' h]

theorem num_bits_mod (w x : Nat) : num (bits w x) = x % 2 ^ w := by
  rw [← bits_mod, num_bits _ _ (Nat.mod_lt _ (Nat.two_pow_pos w))]

theorem take_unpack (n : Nat) (r : List Nat) :
    takeBits (8 * n) (unpack r) = if n ≤ r.length then some (unpack (r.take n), unpack (r.drop n)) else none := by
  have hl := unpack_length r
  rw [takeBits]
  split
  · rw [if_neg (by omega)]
  · have hn : n ≤ r.length := by omega
    rw [if_pos hn]
    have e : unpack r = unpack (r.take n) ++ unpack (r.drop n) := by rw [← unpack_append, List.take_append_drop]
    have h2 : (unpack (r.take n)).length = 8 * n := by rw [unpack_length, List.length_take, Nat.min_eq_left hn]
    rw [e, List.take_left' h2, List.drop_left' h2]

theorem octets_take {r : List Nat} (h : Octets r) (n : Nat) : Octets (r.take n) := fun x hx => h x (List.mem_of_mem_take hx)

theorem two_octets {a b : Nat} (ha : a < 256) (r : List Nat) : unpack (a :: b :: r) = bits 16 (a + 256 * b) ++ unpack r := by
  rw [unpack_cons, unpack_cons, ← List.append_assoc, bits_join 8 8 a b (by omega)]

/-- Reading ACL data from any octets. -/
theorem parse_acl {a b c d : Nat} {r : List Nat} (ho : Octets (a :: b :: c :: d :: r)) :
    parse hciAcl (a :: b :: c :: d :: r) =
      if c + 256 * d ≤ r.length then some (((a + 256 * (b % 16), b / 16 % 4, b / 64, ()), ()), r.take (c + 256 * d)) else none := by
  simp only [Octets, List.mem_cons, forall_eq_or_imp] at ho
  obtain ⟨ha, hb, hc, hd, hr⟩ := ho
  have e : unpack (a :: b :: c :: d :: r) =
      bits 12 (a + 256 * b) ++ (bits 2 ((a + 256 * b) / 2 ^ 12) ++ (bits 2 ((a + 256 * b) / 2 ^ 12 / 2 ^ 2) ++
        (bits 16 (c + 256 * d) ++ unpack r))) := by
    rw [two_octets ha, two_octets hc, show (16 : Nat) = 12 + (2 + 2) from rfl, bits_add 12, bits_add 2]
    simp only [List.append_assoc]
  have key : decAll hciAcl.levels (unpack (a :: b :: c :: d :: r)) =
      if c + 256 * d ≤ r.length then
        some (((a + 256 * (b % 16), b / 16 % 4, b / 64, ()), ()), unpack (r.take (c + 256 * d))) else none := by
    have n1 : (a + 256 * b) % 2 ^ 12 = a + 256 * (b % 16) := by omega
    have n2 : (a + 256 * b) / 2 ^ 12 % 2 ^ 2 = b / 16 % 4 := by omega
    have n3 : (a + 256 * b) / 2 ^ 12 / 2 ^ 2 % 2 ^ 2 = b / 64 := by omega
    have n4 : (c + 256 * d) % 2 ^ 16 = c + 256 * d := by omega
    by_cases hle : c + 256 * d ≤ r.length
    · simp only [hciAcl, decAll, Hci.bodyAcl, dec, e, takeBits_append, num_bits_mod, payloadDec, n1, n2, n3, n4, if_true,
        take_unpack, meets, List.all_nil, if_pos hle]
      rfl
    · simp only [hciAcl, decAll, Hci.bodyAcl, dec, e, takeBits_append, num_bits_mod, payloadDec, n4, if_true,
        take_unpack, if_neg hle]
      rfl
  by_cases hle : c + 256 * d ≤ r.length
  · simp only [parse, key, if_pos hle, octets_unpack _ (octets_take hr _)]
    rfl
  · simp only [parse, key, if_neg hle]
    rfl

theorem allDec_unpack : ∀ (n : Nat) (r : List Nat), r.length ≤ n → Octets r →
    allDec (fun l => element (dec (.uint 8 .done) (fun _ => 0) [] l)) n (unpack r) = some (values r) := by
  intro n r
  induction r generalizing n with
  | nil => intro _ _; cases n <;> rfl
  | cons a r ih =>
    intro hn ho
    simp only [Octets, List.mem_cons, forall_eq_or_imp] at ho
    match n, hn with
    | n + 1, hn =>
      rw [List.length_cons] at hn
      rw [unpack_cons]
      have e : (bits 8 a ++ unpack r) = (a % 2 == 1) :: (bits 7 (a / 2) ++ unpack r) := rfl
      have hd : element (dec (.uint 8 .done) (fun _ => 0) [] (bits 8 a ++ unpack r)) = some ((a, ()), unpack r) := by
        simp only [dec, takeBits_append, num_bits_mod, element]
        rw [Nat.mod_eq_of_lt (by simpa using ho.1)]
        rfl
      rw [e, allDec, ← e, hd]
      simp only [ih n (by omega) ho.2]
      rfl

/-- Reading synchronous data from any octets. -/
theorem parse_sco {a b c : Nat} {r : List Nat} (ho : Octets (a :: b :: c :: r)) :
    parse hciSco (a :: b :: c :: r) =
      if c ≤ r.length then some (((a + 256 * (b % 16), b / 16 % 4, values (r.take c), ()), ()), []) else none := by
  simp only [Octets, List.mem_cons, forall_eq_or_imp] at ho
  obtain ⟨ha, hb, hc, hr⟩ := ho
  have e : unpack (a :: b :: c :: r) =
      bits 12 (a + 256 * b) ++ (bits 2 ((a + 256 * b) / 2 ^ 12) ++ (bits 2 ((a + 256 * b) / 2 ^ 12 / 2 ^ 2) ++
        (bits 8 c ++ unpack r))) := by
    rw [two_octets ha, unpack_cons, show (16 : Nat) = 12 + (2 + 2) from rfl, bits_add 12, bits_add 2]
    simp only [List.append_assoc]
  have n1 : (a + 256 * b) % 2 ^ 12 = a + 256 * (b % 16) := by omega
  have n2 : (a + 256 * b) / 2 ^ 12 % 2 ^ 2 = b / 16 % 4 := by omega
  have n4 : c % 2 ^ 8 = c := by omega
  by_cases hle : c ≤ r.length
  · have hall := allDec_unpack (unpack (r.take c)).length (r.take c) (by rw [unpack_length]; omega) (octets_take hr c)
    simp only [parse, hciSco, decAll, Hci.bodySco, dec, e, takeBits_append, num_bits_mod, paddedDec, arrayDec, n1, n2, n4, if_true,
      take_unpack, if_pos hle, meets, List.all_nil] at hall ⊢
    simp only [hall]
    rfl
  · simp only [parse, hciSco, decAll, Hci.bodySco, dec, e, takeBits_append, num_bits_mod, paddedDec, arrayDec, n4, if_true,
      take_unpack, if_neg hle]
    rfl

/-- Fewer octets than the header are no data packet. -/
theorem parse_short (p : Packet) (hd : p ∈ declared) (l : List Nat)
    (h : ∀ v (pl : List Nat), 8 * l.length < packetWidth p.levels v pl.length) : parse p l = none := by
  cases hp : parse p l with
  | none => rfl
  | some x =>
    obtain ⟨v, pl⟩ := x
    have h1 := (C80_again p hd l v pl hp).2.1
    have h2 := (C80_octets p hd v pl).1
    have := h v pl
    omega

theorem short_acl {l : List Nat} (h : l.length < 4) : parse hciAcl l = none := by
  refine parse_short hciAcl hciAcl_declared l fun v pl => ?_
  show 8 * l.length < 12 + (2 + (2 + (16 + (8 * pl.length + 0))))
  omega

theorem short_sco {l : List Nat} (h : l.length < 3) : parse hciSco l = none := by
  refine parse_short hciSco hciSco_declared l fun v pl => ?_
  obtain ⟨⟨a, b, xs, ⟨⟩⟩, ⟨⟩⟩ := v
  show 8 * l.length < 12 + (2 + (2 + (8 + (max (xs.map (fun x => width (.uint 8 .done) x 0)).sum (8 * 0) + 0))))
  omega

/-- ACL data is read exactly from the octets that begin with an ACL data packet. -/
theorem parse_aclHandle {l : List Nat} (ho : Octets l) :
    (aclHandle l = none ∧ parse hciAcl l = none) ∨
    ∃ h pb data, aclHandle l = some h ∧ h < 4096 ∧ parse hciAcl l = some (((h, pb, aclBroadcast l, ()), ()), data) := by
  match l with
  | [] => exact .inl ⟨rfl, short_acl (by simp)⟩
  | [_] => exact .inl ⟨rfl, short_acl (by simp)⟩
  | [_, _] => exact .inl ⟨rfl, short_acl (by simp)⟩
  | [_, _, _] => exact .inl ⟨rfl, short_acl (by simp)⟩
  | a :: b :: c :: d :: r =>
    rw [parse_acl ho]
    have ha := ho a (by simp)
    by_cases h : c + 256 * d ≤ r.length
    · exact .inr ⟨a + 256 * (b % 16), _, _, if_pos h, by omega, by rw [if_pos h]; rfl⟩
    · exact .inl ⟨if_neg h, if_neg h⟩

theorem parse_scoHandle {l : List Nat} (ho : Octets l) :
    (scoHandle l = none ∧ parse hciSco l = none) ∨
    ∃ h st data, scoHandle l = some h ∧ h < 4096 ∧ parse hciSco l = some (((h, st, values data, ()), ()), []) := by
  match l with
  | [] => exact .inl ⟨rfl, short_sco (by simp)⟩
  | [_] => exact .inl ⟨rfl, short_sco (by simp)⟩
  | [_, _] => exact .inl ⟨rfl, short_sco (by simp)⟩
  | a :: b :: c :: r =>
    rw [parse_sco ho]
    have ha := ho a (by simp)
    by_cases h : c ≤ r.length
    · exact .inr ⟨a + 256 * (b % 16), _, _, if_pos h, by omega, by rw [if_pos h]⟩
    · exact .inl ⟨if_neg h, if_neg h⟩

theorem short_command {l : List Nat} (h : l.length < 3) : parse hciCommand l = none := by
  refine parse_short hciCommand hciCommand_declared l fun v pl => ?_
  show 8 * l.length < 16 + (8 + (8 * pl.length + 0))
  omega

/-- Reading a command from any octets. -/
theorem parse_command {a b c : Nat} {r : List Nat} (ho : Octets (a :: b :: c :: r)) :
    parse hciCommand (a :: b :: c :: r) = if c ≤ r.length then some (((a + 256 * b, ()), ()), r.take c) else none := by
  simp only [Octets, List.mem_cons, forall_eq_or_imp] at ho
  obtain ⟨ha, hb, hc, hr⟩ := ho
  have e : unpack (a :: b :: c :: r) = bits 16 (a + 256 * b) ++ (bits 8 c ++ unpack r) := by
    rw [two_octets ha, unpack_cons]
  have n1 : (a + 256 * b) % 2 ^ 16 = a + 256 * b := by omega
  have n4 : c % 2 ^ 8 = c := by omega
  have key : decAll hciCommand.levels (unpack (a :: b :: c :: r)) =
      if c ≤ r.length then some (((a + 256 * b, ()), ()), unpack (r.take c)) else none := by
    by_cases hle : c ≤ r.length
    · simp only [hciCommand, decAll, Hci.bodyCommand, dec, e, takeBits_append, num_bits_mod, payloadDec, n1, n4, if_true,
        take_unpack, meets, List.all_nil, if_pos hle]
      rfl
    · simp only [hciCommand, decAll, Hci.bodyCommand, dec, e, takeBits_append, num_bits_mod, payloadDec, n4, if_true,
        take_unpack, if_neg hle]
      rfl
  by_cases hle : c ≤ r.length
  · simp only [parse, key, if_pos hle, octets_unpack _ (octets_take hr _)]
    rfl
  · simp only [parse, key, if_neg hle]
    rfl

theorem parse_commandOf {l : List Nat} (ho : Octets l) :
    parse hciCommand l = (commandOf l).map (fun x => (((x.1, ()), ()), x.2)) := by
  match l with
  | [] => exact short_command (by simp)
  | [_] => exact short_command (by simp)
  | [_, _] => exact short_command (by simp)
  | a :: b :: c :: r =>
    rw [parse_command ho, commandOf]
    by_cases h : c ≤ r.length
    · rw [if_pos h, if_pos h]; rfl
    · rw [if_neg h, if_neg h]; rfl

end Verif.Flow
