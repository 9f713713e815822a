import Verif.Flow.Model
import Verif.Flow.Spec
import Verif.Pdl.Props
/-! # How data packets are read and written -/
namespace Verif.Flow
open Pdl

theorem bits_add (a : Nat) : ∀ b n, bits (a + b) n = bits a n ++ bits b (n / 2 ^ a) := by
  induction a with
  | zero => intro b n; simp [bits]
  | succ a ih =>
    intro b n
    rw [show a + 1 + b = (a + b) + 1 by omega]
    simp only [bits, ih, List.cons_append]
    rw [Nat.div_div_eq_div_mul, show 2 * 2 ^ a = 2 ^ (a + 1) by rw [Nat.pow_succ]; omega]

theorem bits_mod (a : Nat) : ∀ n, bits a (n % 2 ^ a) = bits a n := by
  induction a with
  | zero => intro n; rfl
  | succ a ih =>
    intro n
    simp only [bits]
    have h1 : n % 2 ^ (a + 1) % 2 = n % 2 := by
      rw [Nat.pow_succ, Nat.mul_comm, Nat.mod_mul_right_mod]
    have h2 : n % 2 ^ (a + 1) / 2 = n / 2 % 2 ^ a := by
      rw [Nat.pow_succ, Nat.mul_comm, Nat.mod_mul_right_div_self]
    rw [h1, h2, ih]

theorem bits_join (a b x y : Nat) (h : x < 2 ^ a) : bits a x ++ bits b y = bits (a + b) (x + 2 ^ a * y) := by
  rw [bits_add, ← bits_mod a (x + 2 ^ a * y), Nat.add_mul_mod_self_left, Nat.mod_eq_of_lt h,
    Nat.add_mul_div_left _ _ (Nat.two_pow_pos a), Nat.div_eq_of_lt h, Nat.zero_add]

theorem unpack_cons (a : Nat) (l : List Nat) : unpack (a :: l) = bits 8 a ++ unpack l := by simp [unpack]
theorem unpack_nil' : unpack [] = [] := rfl
theorem unpack_append (x y : List Nat) : unpack (x ++ y) = unpack x ++ unpack y := by simp [unpack]

theorem bits_two (n : Nat) : bits 16 n = unpack [n % 256, n / 256] := by
  rw [show (16 : Nat) = 8 + 8 from rfl, bits_add, unpack_cons, unpack_cons, unpack_nil', List.append_nil, ← bits_mod 8 n]

theorem flat_values (l : List Nat) : (values l).flatMap (fun x => enc (.uint 8 .done) x []) = unpack l := by
  induction l with
  | nil => rfl
  | cons a l ih =>
    show (bits 8 a ++ []) ++ (values l).flatMap (fun x => enc (.uint 8 .done) x []) = unpack (a :: l)
    rw [ih, unpack_cons, List.append_nil]

theorem octetsOf_values (l : List Nat) : octetsOf (values l) = l := by
  induction l with
  | nil => rfl
  | cons a l ih => show a :: octetsOf (values l) = a :: l; rw [ih]

theorem octets_append (l : List Nat) (ho : Octets l) (bs : List Bool) (h : bs = unpack l) : octets bs = l := by
  rw [h, octets_unpack l ho]

theorem octets_of_append {x y : List Nat} (hx : Octets x) (hy : Octets y) : Octets (x ++ y) := by
  intro a ha
  rcases List.mem_append.1 ha with h | h
  · exact hx a h
  · exact hy a h

/-- How an ACL data packet is written. -/
theorem write_acl {h pb bc : Nat} {data : List Nat} (hf : AclFields h pb bc data) :
    serialize hciAcl ((h, pb, bc, ()), ()) data = aclOctets h pb bc data := by
  obtain ⟨h1, h2, h3, h4, h5⟩ := hf
  refine octets_append _ ?_ _ ?_
  · refine octets_of_append ?_ h5
    simp only [Octets, List.mem_cons, List.not_mem_nil, or_false, forall_eq_or_imp, forall_eq]
    omega
  · have e : encAll hciAcl.levels ((h, pb, bc, ()), ()) (unpack data)
        = bits 12 h ++ (bits 2 pb ++ (bits 2 bc ++ (bits 16 ((unpack data).length / 8) ++ (unpack data ++ [])))) := rfl
    rw [e, List.append_nil, ← List.append_assoc, ← List.append_assoc, bits_join 12 2 h pb (by omega), ← List.append_assoc,
      bits_join 14 2 _ bc (by omega), bits_two, bits_two, unpack_length, Nat.mul_div_cancel_left _ (by decide)]
    simp only [aclOctets, unpack_append, unpack_cons, unpack_nil', List.append_nil, List.append_assoc]
    have a1 : (h + 2 ^ 12 * pb + 2 ^ (12 + 2) * bc) % 256 = h % 256 := by omega
    have a2 : (h + 2 ^ 12 * pb + 2 ^ (12 + 2) * bc) / 256 = h / 256 + 16 * pb + 64 * bc := by omega
    rw [a1, a2]

theorem hciAcl_declared : hciAcl ∈ declared :=
  List.mem_flatten.mpr ⟨Hci.packetsAcl, by simp [families], by simp [hciAcl, Hci.packetsAcl, Hci.packetsAcl0]⟩
theorem hciSco_declared : hciSco ∈ declared :=
  List.mem_flatten.mpr ⟨Hci.packetsSco, by simp [families], by simp [hciSco, Hci.packetsSco, Hci.packetsSco0]⟩

/-- How an ACL data packet is read. -/
theorem read_acl {h pb bc : Nat} {data : List Nat} (hf : AclFields h pb bc data) :
    parse hciAcl (aclOctets h pb bc data) = some (((h, pb, bc, ()), ()), data) := by
  rw [← write_acl hf]
  refine C80_read hciAcl hciAcl_declared _ _ ?_
  obtain ⟨h1, h2, h3, h4, h5⟩ := hf
  refine (legal_iff _ _ _).mpr ⟨?_, h5, .inr rfl⟩
  show (((decide (h < 2 ^ 12) && (decide (pb < 2 ^ 2) && (decide (bc < 2 ^ 2) && (decide (8 * data.length / 8 < 2 ^ 16) && true)))) && true) && true) = true
  simp only [Bool.and_true, Bool.and_eq_true, decide_eq_true_eq]
  omega

theorem fits_values (l : List Nat) (ho : Octets l) : (values l).all (fun x => fits (.uint 8 .done) x 0) = true := by
  rw [List.all_eq_true]
  intro x hx
  obtain ⟨a, ha, rfl⟩ := List.mem_map.1 hx
  show (decide (a < 2 ^ 8) && true) = true
  have := ho a ha
  simp only [Bool.and_true, decide_eq_true_eq]
  omega

theorem width_values (l : List Nat) : ((values l).map (fun x => width (.uint 8 .done) x 0)).sum = 8 * l.length := by
  induction l with
  | nil => rfl
  | cons a l ih =>
    show 8 + 0 + ((values l).map (fun x => width (.uint 8 .done) x 0)).sum = _
    rw [ih, List.length_cons]; omega

theorem padTo_zero (l : List Bool) : padTo 0 l = l := by simp [padTo]

/-- How a synchronous data packet is written. -/
theorem write_sco {h st : Nat} {data : List Nat} (hf : ScoFields h st data) :
    serialize hciSco ((h, st, values data, ()), ()) [] = scoOctets h st data := by
  obtain ⟨h1, h2, h4, h5⟩ := hf
  refine octets_append _ ?_ _ ?_
  · refine octets_of_append ?_ h5
    simp only [Octets, List.mem_cons, List.not_mem_nil, or_false, forall_eq_or_imp, forall_eq]
    omega
  · have e : encAll hciSco.levels ((h, st, values data, ()), ()) (unpack [])
        = bits 12 h ++ (bits 2 st ++ (bits 2 0 ++ (bits 8 (((values data).flatMap (fun x => enc (.uint 8 .done) x [])).length / 8)
          ++ (padTo 0 ((values data).flatMap (fun x => enc (.uint 8 .done) x [])) ++ [])))) := rfl
    rw [e, flat_values, padTo_zero, List.append_nil, ← List.append_assoc, ← List.append_assoc, bits_join 12 2 h st (by omega), ← List.append_assoc,
      bits_join 14 2 _ 0 (by omega), bits_two, unpack_length, Nat.mul_div_cancel_left _ (by decide)]
    simp only [scoOctets, unpack_append, unpack_cons, unpack_nil', List.append_nil, List.append_assoc]
    have a1 : (h + 2 ^ 12 * st + 2 ^ (12 + 2) * 0) % 256 = h % 256 := by omega
    have a2 : (h + 2 ^ 12 * st + 2 ^ (12 + 2) * 0) / 256 = h / 256 + 16 * st := by omega
    rw [a1, a2]

/-- How a synchronous data packet is read. -/
theorem read_sco {h st : Nat} {data : List Nat} (hf : ScoFields h st data) :
    parse hciSco (scoOctets h st data) = some (((h, st, values data, ()), ()), []) := by
  rw [← write_sco hf]
  refine C80_read hciSco hciSco_declared _ _ ?_
  obtain ⟨h1, h2, h4, h5⟩ := hf
  refine (legal_iff _ _ _).mpr ⟨?_, by simp, .inl rfl⟩
  show (((decide (h < 2 ^ 12) && (decide (st < 2 ^ 2) && (decide (((values data).map (fun x => width (.uint 8 .done) x 0)).sum / 8 < 2 ^ 8)
    && ((((values data).all (fun x => fits (.uint 8 .done) x 0) && true) && (true || decide (((values data).map (fun x => width (.uint 8 .done) x 0)).sum ≤ 8 * 0))) && true)))) && true) && true) = true
  rw [width_values, fits_values data h5]
  simp only [Bool.and_true, Bool.true_or, Bool.and_eq_true, decide_eq_true_eq]
  omega

/-- How the report of a completed packet is written. -/
theorem write_credit {h : Nat} (hh : h < 4096) : credit h = completedOctets h := by
  refine octets_append _ ?_ _ ?_
  · simp only [completedOctets, Octets, List.mem_cons, List.not_mem_nil, or_false, forall_eq_or_imp, forall_eq]
    omega
  · show bits 8 19 ++ (bits 8 ((bits 8 1 ++ (padTo 0 ((bits 12 h ++ (bits 4 0 ++ (bits 16 1 ++ []))) ++ []) ++ [])).length / 8)
      ++ ((bits 8 1 ++ (padTo 0 ((bits 12 h ++ (bits 4 0 ++ (bits 16 1 ++ []))) ++ []) ++ [])) ++ [])) = _
    simp only [padTo_zero, List.append_nil, List.length_append, bits_length]
    rw [← List.append_assoc (bits 12 h), bits_join 12 4 h 0 (by omega), bits_two]
    simp only [completedOctets, unpack_append, unpack_cons, unpack_nil', List.append_nil, List.append_assoc]
    have : (h + 2 ^ 12 * 0) = h := by omega
    rw [this]
    simp only [show bits 16 1 = bits 8 1 ++ bits 8 0 from rfl]

theorem hciCommand_declared : hciCommand ∈ declared :=
  List.mem_flatten.mpr ⟨Hci.packetsCommand, by simp [families], by simp [hciCommand, Hci.packetsCommand, Hci.packetsCommand0]⟩

/-- How a command is written and read. -/
theorem write_command {op : Nat} {ps : List Nat} (h1 : op < 65536) (h2 : ps.length < 256) (h3 : Octets ps) :
    serialize hciCommand ((op, ()), ()) ps = commandOctets op ps := by
  refine octets_append _ ?_ _ ?_
  · refine octets_of_append ?_ h3
    simp only [Octets, List.mem_cons, List.not_mem_nil, or_false, forall_eq_or_imp, forall_eq]
    omega
  · show bits 16 op ++ (bits 8 ((unpack ps).length / 8) ++ (unpack ps ++ [])) = _
    rw [bits_two, unpack_length, Nat.mul_div_cancel_left _ (by decide)]
    simp only [commandOctets, unpack_append, unpack_cons, unpack_nil', List.append_nil, List.append_assoc]

theorem read_command {op : Nat} {ps : List Nat} (h1 : op < 65536) (h2 : ps.length < 256) (h3 : Octets ps) :
    parse hciCommand (commandOctets op ps) = some (((op, ()), ()), ps) := by
  rw [← write_command h1 h2 h3]
  refine C80_read hciCommand hciCommand_declared _ _ ?_
  refine (legal_iff _ _ _).mpr ⟨?_, h3, .inr rfl⟩
  show (((decide (op < 2 ^ 16) && (decide (8 * ps.length / 8 < 2 ^ 8) && true)) && true) && true) = true
  simp only [Bool.and_true, Bool.and_eq_true, decide_eq_true_eq]
  omega

/-- How the loopback of a command is written, whatever its length. -/
theorem write_loopback {l : List Nat} (h : Octets l) :
    serialize loopbackCommand ((25, ()), (), ()) l = [0x19, l.length % 256] ++ l := by
  refine octets_append _ ?_ _ ?_
  · refine octets_of_append ?_ h
    simp only [Octets, List.mem_cons, List.not_mem_nil, or_false, forall_eq_or_imp, forall_eq]
    omega
  · show bits 8 25 ++ (bits 8 ((unpack l ++ []).length / 8) ++ ((unpack l ++ []) ++ [])) = _
    rw [List.append_nil, List.append_nil, unpack_length, Nat.mul_div_cancel_left _ (by decide), ← bits_mod 8 l.length]
    simp only [unpack_append, unpack_cons, unpack_nil', List.append_nil, List.append_assoc]

theorem bits_address (a : Nat) : bits 48 a = unpack (addressOctets a) := by
  have e : ∀ n, bits 8 (n % 256) = bits 8 n := fun n => bits_mod 8 n
  simp only [addressOctets, unpack_cons, unpack_nil', List.append_nil, e]
  rw [show (48 : Nat) = 8 + 40 from rfl, bits_add, show (40 : Nat) = 8 + 32 from rfl, bits_add, show (32 : Nat) = 8 + 24 from rfl, bits_add,
    show (24 : Nat) = 8 + 16 from rfl, bits_add, show (16 : Nat) = 8 + 8 from rfl, bits_add]
  simp only [Nat.div_div_eq_div_mul]

theorem octets_address {a : Nat} (h : a < 2 ^ 48) : Octets (addressOctets a) := by
  simp only [addressOctets, Octets, List.mem_cons, List.not_mem_nil, or_false, forall_eq_or_imp, forall_eq]
  omega

theorem airAcl_declared : airAcl ∈ declared :=
  List.mem_flatten.mpr ⟨LinkLayer.packetsLinkLayerPacket, by simp [families], by simp [airAcl, LinkLayer.packetsLinkLayerPacket, LinkLayer.packetsLinkLayerPacket0]⟩
theorem airSco_declared : airSco ∈ declared :=
  List.mem_flatten.mpr ⟨LinkLayer.packetsLinkLayerPacket, by simp [families], by simp [airSco, LinkLayer.packetsLinkLayerPacket, LinkLayer.packetsLinkLayerPacket0]⟩
theorem airPacket_declared : airPacket ∈ declared :=
  List.mem_flatten.mpr ⟨LinkLayer.packetsLinkLayerPacket, by simp [families], by simp [airPacket, LinkLayer.packetsLinkLayerPacket, LinkLayer.packetsLinkLayerPacket0]⟩

/-- A packet on the air. -/
theorem write_air {t src dst : Nat} {pl : List Nat} (ht : t < 256) (h1 : src < 2 ^ 48) (h2 : dst < 2 ^ 48) (h3 : Octets pl) :
    serialize airPacket ((t, src, dst, ()), ()) pl = [t] ++ addressOctets src ++ addressOctets dst ++ pl := by
  refine octets_append _ ?_ _ ?_
  · refine octets_of_append (octets_of_append (octets_of_append ?_ (octets_address h1)) (octets_address h2)) h3
    intro x hx; simp only [List.mem_singleton] at hx; omega
  · show bits 8 t ++ (bits 48 src ++ (bits 48 dst ++ (unpack pl ++ []))) = _
    rw [bits_address, bits_address]
    simp only [unpack_append, unpack_cons, unpack_nil', List.append_nil, List.append_assoc]

theorem read_air {t src dst : Nat} {pl : List Nat} (ht : t < 256) (h1 : src < 2 ^ 48) (h2 : dst < 2 ^ 48) (h3 : Octets pl) :
    parse airPacket ([t] ++ addressOctets src ++ addressOctets dst ++ pl) = some (((t, src, dst, ()), ()), pl) := by
  rw [← write_air ht h1 h2 h3]
  refine C80_read airPacket airPacket_declared _ _ ?_
  refine (legal_iff _ _ _).mpr ⟨?_, h3, .inr rfl⟩
  show (((decide (t < 2 ^ 8) && (decide (src < 2 ^ 48) && (decide (dst < 2 ^ 48) && true))) && true) && true) = true
  simp only [Bool.and_true, Bool.and_eq_true, decide_eq_true_eq]
  omega

theorem write_airAcl {src dst pb bc : Nat} {data : List Nat} (h1 : src < 2 ^ 48) (h2 : dst < 2 ^ 48) (h3 : pb < 256) (h4 : bc < 256)
    (h5 : Octets data) :
    serialize airAcl ((1, src, dst, ()), (pb, bc, values data, ()), ()) [] =
      [1] ++ addressOctets src ++ addressOctets dst ++ ([pb, bc] ++ data) := by
  refine octets_append _ ?_ _ ?_
  · refine octets_of_append (octets_of_append (octets_of_append ?_ (octets_address h1)) (octets_address h2)) (octets_of_append ?_ h5)
    · intro x hx; simp only [List.mem_singleton] at hx; omega
    · intro x hx; simp only [List.mem_cons, List.not_mem_nil, or_false] at hx; omega
  · show bits 8 1 ++ (bits 48 src ++ (bits 48 dst ++ ((bits 8 pb ++ (bits 8 bc ++
      (padTo 0 ((values data).flatMap (fun x => enc (.uint 8 .done) x [])) ++ []))) ++ []))) = _
    rw [bits_address, bits_address, flat_values, padTo_zero]
    simp only [unpack_append, unpack_cons, unpack_nil', List.append_nil, List.append_assoc]

theorem read_airAcl {src dst pb bc : Nat} {data : List Nat} (h1 : src < 2 ^ 48) (h2 : dst < 2 ^ 48) (h3 : pb < 256) (h4 : bc < 256)
    (h5 : Octets data) :
    parse airAcl ([1] ++ addressOctets src ++ addressOctets dst ++ ([pb, bc] ++ data)) =
      some (((1, src, dst, ()), (pb, bc, values data, ()), ()), []) := by
  rw [← write_airAcl h1 h2 h3 h4 h5]
  refine C80_read airAcl airAcl_declared _ _ ?_
  refine (legal_iff _ _ _).mpr ⟨?_, by simp, .inl rfl⟩
  show (((decide (1 < 2 ^ 8) && (decide (src < 2 ^ 48) && (decide (dst < 2 ^ 48) && true))) && true) &&
    (((decide (pb < 2 ^ 8) && (decide (bc < 2 ^ 8) && ((((values data).all (fun x => fits (.uint 8 .done) x 0) && true) &&
      (true || decide (((values data).map (fun x => width (.uint 8 .done) x 0)).sum ≤ 8 * 0))) && true))) && true) && true)) = true
  rw [fits_values data h5]
  simp only [Bool.and_true, Bool.true_or, Bool.and_eq_true, decide_eq_true_eq]
  omega

theorem write_airSco {src dst : Nat} {data : List Nat} (h1 : src < 2 ^ 48) (h2 : dst < 2 ^ 48) (h5 : Octets data) :
    serialize airSco ((2, src, dst, ()), (), ()) data = [2] ++ addressOctets src ++ addressOctets dst ++ data := by
  refine octets_append _ ?_ _ ?_
  · refine octets_of_append (octets_of_append (octets_of_append ?_ (octets_address h1)) (octets_address h2)) h5
    · intro x hx; simp only [List.mem_singleton] at hx; omega
  · show bits 8 2 ++ (bits 48 src ++ (bits 48 dst ++ ((unpack data ++ []) ++ []))) = _
    rw [bits_address, bits_address]
    simp only [unpack_append, unpack_cons, unpack_nil', List.append_nil, List.append_assoc]

theorem read_airSco {src dst : Nat} {data : List Nat} (h1 : src < 2 ^ 48) (h2 : dst < 2 ^ 48) (h5 : Octets data) :
    parse airSco ([2] ++ addressOctets src ++ addressOctets dst ++ data) = some (((2, src, dst, ()), (), ()), data) := by
  rw [← write_airSco h1 h2 h5]
  refine C80_read airSco airSco_declared _ _ ?_
  refine (legal_iff _ _ _).mpr ⟨?_, h5, .inr rfl⟩
  show (((decide (2 < 2 ^ 8) && (decide (src < 2 ^ 48) && (decide (dst < 2 ^ 48) && true))) && true) && ((true && true) && true)) = true
  simp only [Bool.and_true, Bool.and_eq_true, decide_eq_true_eq]
  omega

end Verif.Flow
