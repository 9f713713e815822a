import Verif.Pdl.Chain
import Verif.Pdl.Tests
/-!
# C80, C81: the declared packets

Properties of every packet that is declared in the packet description files.
-/
namespace Verif.Pdl

theorem declared_wf : declared.all (fun p => wfAll p.levels) = true := by decide +kernel

theorem wf_of {p : Packet} (h : p ∈ declared) : wfAll p.levels = true := List.all_eq_true.mp declared_wf p h

theorem legal_iff (p : Packet) (v : Vals p.levels) (pl : List Nat) :
    p.legal v pl = true ↔ fitsAll p.levels v pl.length = true ∧ (∀ x ∈ pl, x < 256) ∧ (pl = [] ∨ roomLast p.levels = true) := by
  rw [roomLast_eq]
  simp only [Packet.legal, Bool.and_eq_true, Bool.or_eq_true, List.all_eq_true, decide_eq_true_eq, List.isEmpty_iff, and_assoc]
  exact Iff.rfl

theorem unpack_nil : unpack [] = [] := rfl

/-- C80: whatever is put in a packet is read from it: the values of all its fields, the elements of all its arrays, and the payload. -/
theorem C80_read (p : Packet) (hp : p ∈ declared) (v : Vals p.levels) (pl : List Nat) (h : p.legal v pl = true) :
    parse p (serialize p v pl) = some (v, pl) := by
  obtain ⟨h1, h2, h3⟩ := (legal_iff p v pl).mp h
  have hw := wf_of hp
  have hl := encAll_length p.levels v (unpack pl) pl.length (unpack_length pl)
  have ha := packetWidth_aligned p.levels v pl.length hw
  have hd := decAll_encAll p.levels v (unpack pl) pl.length hw h1 (unpack_length pl)
    (by rcases h3 with h3 | h3
        · right; rw [h3]; rfl
        · left; exact h3)
  have hu : unpack (octets (encAll p.levels v (unpack pl))) = encAll p.levels v (unpack pl) :=
    unpack_octets _ (packetWidth p.levels v pl.length / 8) (by omega)
  simp only [parse, serialize, hu, hd, octets_unpack pl h2]

/-- C80: two different contents are never written the same way. -/
theorem C80_injective (p : Packet) (hp : p ∈ declared) (v w : Vals p.levels) (pl ql : List Nat)
    (h : p.legal v pl = true) (h' : p.legal w ql = true) (he : serialize p v pl = serialize p w ql) : v = w ∧ pl = ql := by
  have h1 := C80_read p hp v pl h
  rw [he, C80_read p hp w ql h'] at h1
  injection h1 with h1
  injection h1 with h1 h2
  exact ⟨h1.symm, h2.symm⟩

/-- C80: what is written is a number of whole octets, as many as the widths of the fields add up to. -/
theorem C80_octets (p : Packet) (hp : p ∈ declared) (v : Vals p.levels) (pl : List Nat) :
    8 * (serialize p v pl).length = packetWidth p.levels v pl.length ∧ ∀ x ∈ serialize p v pl, x < 256 := by
  have hw := wf_of hp
  have hl := encAll_length p.levels v (unpack pl) pl.length (unpack_length pl)
  have ha := packetWidth_aligned p.levels v pl.length hw
  refine ⟨?_, octets_lt _⟩
  have := octets_length (encAll p.levels v (unpack pl)) (packetWidth p.levels v pl.length / 8) (by omega)
  simp only [serialize, this]; omega

/-- C80: whatever octets are accepted, what is read from them fits the packet, is no longer than they are, and is read again from
the packet that is written with it. -/
theorem C80_again (p : Packet) (hp : p ∈ declared) (l : List Nat) (v : Vals p.levels) (pl : List Nat)
    (h : parse p l = some (v, pl)) :
    p.legal v pl = true ∧ (serialize p v pl).length ≤ l.length ∧ parse p (serialize p v pl) = some (v, pl) := by
  have hw := wf_of hp
  simp only [parse] at h
  split at h
  · cases h
  · rename_i v' q hd
    injection h with h; injection h with e1 e2; subst e1; subst e2
    have h8 := payload_octets p.levels (unpack l) v' q hw (by rw [unpack_length]; omega) hd
    obtain ⟨a, b⟩ := decAll_some p.levels (unpack l) v' q hw hd
    have hq : q.length = 8 * (q.length / 8) := by omega
    have hql := octets_length q _ hq
    obtain ⟨c, d⟩ := b _ hq
    have hleg : p.legal v' (octets q) = true := by
      refine (legal_iff p v' (octets q)).mpr ⟨by rw [hql]; exact c, octets_lt q, ?_⟩
      cases hr : roomLast p.levels with
      | true => right; rfl
      | false => left; rw [a hr]; rfl
    refine ⟨hleg, ?_, C80_read p hp v' _ hleg⟩
    have := (C80_octets p hp v' (octets q)).1
    rw [hql] at this
    rw [unpack_length] at d
    omega

/-- C80: if no bits are reserved in the packet and there is no padding, then the octets accepted are those that are written with
what is read, unless there are more of them: nothing else is ignored. -/
theorem C80_exact (p : Packet) (hp : p ∈ declared) (l : List Nat) (v : Vals p.levels) (pl : List Nat)
    (ho : ∀ x ∈ l, x < 256) (hpl : p.plain = true)
    (h : parse p l = some (v, pl)) (hn : (serialize p v pl).length = l.length) : serialize p v pl = l := by
  have hw := wf_of hp
  have hs := (C80_octets p hp v pl).1
  simp only [parse] at h
  split at h
  · cases h
  · rename_i v' q hd
    injection h with h; injection h with e1 e2; subst e1; subst e2
    have h8 := payload_octets p.levels (unpack l) v' q hw (by rw [unpack_length]; omega) hd
    have hq : q.length = 8 * (q.length / 8) := by omega
    have hql := octets_length q _ hq
    rw [hql, hn] at hs
    have := decAll_bits p.levels (unpack l) v' q _ hw hpl hd hq (by rw [unpack_length]; omega)
    simp only [serialize, unpack_octets q _ hq, this, octets_unpack l ho]

theorem fixed_ok : declared.all (fun p => !p.fixedSize || (p.levels.all (fun l => wf [] 0 l.body) && rigidFitsAll p.levels)) = true := by
  decide +kernel

/-- C80: a packet of fixed size can be written with any numbers in the range of its fields: no length field is too small. -/
theorem C80_fixed (p : Packet) (hp : p ∈ declared) (hf : p.fixedSize = true) (v : Vals p.levels)
    (h : inRangeAll p.levels v = true) : p.legal v [] = true := by
  have hk := List.all_eq_true.mp fixed_ok p hp
  simp only [hf, Bool.not_true, Bool.false_or, Bool.and_eq_true, List.all_eq_true] at hk
  simp only [Packet.fixedSize, Bool.and_eq_true, List.all_eq_true] at hf
  refine (legal_iff p v []).mpr ⟨?_, by simp, .inl rfl⟩
  exact (rigid_all p.levels v (by simp only [List.all_eq_true, Bool.and_eq_true]; exact fun l hl => ⟨hk.1 l hl, hf.1 l hl⟩)
    hk.2 h).1

/-! ### Non-vacuity of C80

The examples of packets/hci_packets.pdl are accepted (`vectors_ok` in Tests.lean). Below: a value written by hand, an advertising
report with two responses, the limits of a length field, and octets that are not accepted. -/

example : vectors.length = 78 := rfl

/-- Write Scan Enable, 3. -/
example : parse ⟨"WriteScanEnable", [⟨Hci.bodyCommand, [(0, 0x0c1a)]⟩, ⟨Hci.bodyWriteScanEnable, []⟩]⟩ [0x1a, 0x0c, 1, 3]
    = some (((0x0c1a, ()), (3, ()), ()), []) := by rfl

/-- The op code, the length, and what follows it are checked; octets after the packet are not. -/
example : let p := named Hci.packetsCommand "WriteScanEnable"
    roundTrip p [0x1a, 0x0c, 1, 3] = true ∧ (parse p [0x1b, 0x0c, 1, 3]).isNone = true ∧ (parse p [0x1a, 0x0c, 0]).isNone = true
    ∧ (parse p [0x1a, 0x0c, 2, 3]).isNone = true ∧ (parse p [0x1a, 0x0c, 1]).isNone = true
    ∧ (parse p [0x1a, 0x0c, 1, 3, 9]).isSome = true ∧ roundTrip p [0x1a, 0x0c, 1, 3, 9] = false
    ∧ (parse p [0x1a, 0x0c, 2, 3, 9]).isSome = true := by decide +kernel

/-- Packets with and without reserved bits or padding, and of fixed and variable size. -/
example : (named Hci.packetsCommand "WriteLocalName").plain = true
    ∧ (named Hci.packetsCommand "LeSetAdvertisingData").plain = false
    ∧ (named Hci.packetsEvent "LeAdvertisingReport").fixedSize = false
    ∧ (named Hci.packetsEvent "RemoteNameRequestComplete").fixedSize = true
    ∧ (named Hci.packetsEvent "ConnectionComplete").fixedSize = true := by decide +kernel

/-- An ACL packet of 4 octets: handle 0xabc, boundary flag 2. -/
example : parse ⟨"Acl", [⟨Hci.bodyAcl, []⟩]⟩ [0xbc, 0x2a, 4, 0, 1, 2, 3, 4] = some (((0xabc, 2, 0, ()), ()), [1, 2, 3, 4]) := by
  rfl

/-- What does not fit: a payload of 256 octets in a command; a handle of 13 bits. -/
example : let p : Packet := ⟨"Command", [⟨Hci.bodyCommand, []⟩]⟩
    let q : Packet := ⟨"Acl", [⟨Hci.bodyAcl, []⟩]⟩
    p.legal ((0, ()), ()) (List.replicate 255 7) = true ∧ p.legal ((0, ()), ()) (List.replicate 256 7) = false
    ∧ q.legal ((0xfff, 0, 0, ()), ()) [] = true ∧ q.legal ((0x1000, 0, 0, ()), ()) [] = false := by decide +kernel

/-! ### C81 -/

/-- The pairs of packets of a family that are not told apart. -/
def alike : List (String × String) :=
  [("LeSetExtendedAdvertisingEnableDisableAll", "LeSetExtendedAdvertisingEnable"), ("DM1AclPacket", "FHSAclPacket")]

/-- The two are one of these pairs. -/
def exempt (p q : Packet) : Bool := alike.contains (p.name, q.name) || alike.contains (q.name, p.name)

def distinct (p q : Packet) : Bool :=
  apart p.levels q.levels || derives p.levels q.levels || derives q.levels p.levels || exempt p q

def distinctAll : List Packet → Bool
  | [] => true
  | p :: ps => ps.all (distinct p) && distinctAll ps

set_option maxRecDepth 100000 in
theorem families_distinct : families.all distinctAll = true := by decide +kernel

theorem distinct_of (f : List Packet) (h : distinctAll f = true) : ∀ (i j : Nat) (p q : Packet), i < j → f[i]? = some p →
    f[j]? = some q → distinct p q = true := by
  induction f with
  | nil => intro i j p q _ hp; simp at hp
  | cons a f ih =>
    intro i j p q hij hp hq
    simp only [distinctAll, Bool.and_eq_true, List.all_eq_true] at h
    cases j with
    | zero => omega
    | succ j =>
      rw [List.getElem?_cons_succ] at hq
      cases i with
      | zero =>
        rw [List.getElem?_cons_zero] at hp
        injection hp with hp; subst hp
        exact h.1 q (List.mem_of_getElem? hq)
      | succ i =>
        rw [List.getElem?_cons_succ] at hp
        exact ih h.2 i j p q (by omega) hp hq

theorem parse_isSome (p : Packet) (l : List Nat) : (parse p l).isSome = true ↔ decAll p.levels (unpack l) ≠ none := by
  simp only [parse]
  split <;> rename_i h <;> simp [h]

/-- C81: octets that are accepted as one packet of a family are accepted as no other, except for the packets it derives from and
those that derive from it. Missing: the two pairs of `alike`. -/
theorem C81_apart_partial (f : List Packet) (hf : f ∈ families) (i j : Nat) (p q : Packet) (hi : f[i]? = some p)
    (hj : f[j]? = some q) (hij : i ≠ j) (hd : derives p.levels q.levels = false) (hd' : derives q.levels p.levels = false)
    (hx : exempt p q = false) (l : List Nat) (hp : (parse p l).isSome = true) : parse q l = none := by
  have hall := List.all_eq_true.mp families_distinct f hf
  have key : decAll q.levels (unpack l) = none := by
    have hp' := (parse_isSome p l).mp hp
    rcases Nat.lt_or_gt_of_ne hij with h | h
    · have := distinct_of f hall i j p q h hi hj
      simp only [distinct, hd, hd', hx, Bool.or_false] at this
      exact apart_none _ _ _ this hp'
    · have := distinct_of f hall j i q p h hj hi
      have hx' : exempt q p = false := by
        simp only [exempt, Bool.or_eq_false_iff] at hx ⊢
        exact ⟨hx.2, hx.1⟩
      simp only [distinct, hd, hd', hx', Bool.or_false] at this
      cases hq : decAll q.levels (unpack l) with
      | none => rfl
      | some t => exact absurd (apart_none _ _ _ this (by rw [hq]; simp)) hp'
  simp only [parse, key]

/-- C81, violated: the command that disables all advertising sets is also accepted as the command with a list of sets (an empty
one), and an FHS packet of the air interface as a DM1 packet. -/
theorem C81_apart_violated :
    (∃ p q l, p ∈ Hci.packetsCommand ∧ q ∈ Hci.packetsCommand ∧ derives p.levels q.levels = false
      ∧ derives q.levels p.levels = false ∧ (parse p l).isSome = true ∧ (parse q l).isSome = true)
    ∧ (∃ p q l, p ∈ Baseband.packetsBaseBandPacket ∧ q ∈ Baseband.packetsBaseBandPacket ∧ derives p.levels q.levels = false
      ∧ derives q.levels p.levels = false ∧ (parse p l).isSome = true ∧ (parse q l).isSome = true) := by
  have named_mem : ∀ (f : List Packet) (n : String), f.any (fun p => p.name == n) = true → named f n ∈ f := by
    intro f n h
    simp only [List.any_eq_true] at h
    obtain ⟨x, hx, hn⟩ := h
    simp only [named]
    cases hfind : f.find? (fun p => p.name == n) with
    | none => rw [List.find?_eq_none] at hfind; exact absurd hn (hfind x hx)
    | some y => exact List.mem_of_find?_eq_some hfind
  refine ⟨⟨named Hci.packetsCommand "LeSetExtendedAdvertisingEnableDisableAll",
      named Hci.packetsCommand "LeSetExtendedAdvertisingEnable", [0x39, 0x20, 2, 0, 0], named_mem _ _ ?_, named_mem _ _ ?_, ?_⟩,
    ⟨named Baseband.packetsBaseBandPacket "DM1AclPacket", named Baseband.packetsBaseBandPacket "FHSAclPacket",
      List.replicate 4 0 ++ [0x30] ++ List.replicate 55 0, named_mem _ _ ?_, named_mem _ _ ?_, ?_⟩⟩ <;> decide +kernel

/-- C81: a packet is told from all others by its octets: `derives` holds for an event and a command complete event. -/
example : let e := named Hci.packetsEvent "Event"
    let c := named Hci.packetsEvent "CommandComplete"
    let s := named Hci.packetsEvent "ResetComplete"
    let t := named Hci.packetsEvent "CommandStatus"
    derives e.levels s.levels = true ∧ derives c.levels s.levels = true ∧ derives s.levels c.levels = false
    ∧ derives c.levels t.levels = false ∧ derives t.levels c.levels = false
    ∧ (parse s [0x0e, 4, 1, 3, 0x0c, 0]).isSome = true ∧ (parse t [0x0e, 4, 1, 3, 0x0c, 0]).isNone = true := by decide +kernel

end Verif.Pdl
