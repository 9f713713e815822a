import Verif.WireBr.Events
import Verif.WireBr.EventsSpec
import Verif.WireBr.Lemmas

/-!
# Lemmas for C128
-/
namespace Verif.WireBr

open Verif.Pol Verif.Pdl Verif.Pdl.Hci Verif.Wire
open Verif.Br (LinkType Role)

/-! ### Writing -/

theorem event_octets (code : Nat) (f : Fmt) (v : f.T) (ps : List Nat) (hc : code < 256) (he : octets (enc f v []) = ps)
    (hn : (enc f v []).length = 8 * ps.length) (hl : ps.length < 256) : event code f v = ofEvent code ps := by
  refine congrArg (fun l => (4, l)) ?_
  show octets (enc bodyEvent (code, ()) (enc f v [])) = _
  have h1 : 8 * ps.length / 8 = ps.length := by omega
  simp only [bodyEvent, enc, lenOf, List.append_nil, hn]
  simp [h1, octets_bits8, he, Nat.mod_eq_of_lt hc, Nat.mod_eq_of_lt hl]

theorem octet_elems (d : List UInt8) : d.map octet = elems (d.map UInt8.toNat) := by
  simp only [elems, List.map_map]; rfl

theorem bytes_lt (d : List UInt8) : ∀ n ∈ d.map UInt8.toNat, n < 256 := ofData_lt d

/-- The bits of an array of octets. -/
theorem enc_octet (d : List UInt8) :
    (d.map octet).flatMap (fun x => enc (.uint 8 .done) x []) = unpack (d.map UInt8.toNat) := by
  rw [octet_elems]; exact enc_elems _

theorem octets_bytes (d : List UInt8) : octets (unpack (d.map UInt8.toNat)) = d.map UInt8.toNat := octets_unpack _ (bytes_lt d)

theorem unpack_bytes (d : List UInt8) : (unpack (d.map UInt8.toNat)).length = 8 * d.length := by
  rw [unpack_length, List.length_map]

theorem linkCode_of (l : LinkType) : linkCode l = ofLink l := by cases l <;> rfl
theorem roleCode_of (r : Role) : roleCode r = ofNewRole r := by cases r <;> rfl

theorem octets_15_1z (n : Nat) (r : List Bool) (h : n < 32768) : octets (bits 15 n ++ (bits 1 0 ++ r)) = le 2 n ++ octets r := by
  have := octets_15_1 n 0 r h; simpa using this

theorem octets_15_1ze (n : Nat) (h : n < 32768) : octets (bits 15 n ++ bits 1 0) = le 2 n := by
  have := octets_15_1e n 0 h; simpa using this

theorem le_0 : le 1 0 = [0] := rfl
theorem le_1 : le 1 1 = [1] := rfl

/-- The octets of the fields of an event. -/
macro "ev_enc" "[" t:Lean.Parser.Tactic.simpLemma,* "]" : tactic => `(tactic|
  simp [enc, lenOf, padTo_zero, octets, octets_8le, octets_16, octets_24, octets_32, octets_48, octets_8lee, octets_16e, octets_32e,
    octets_48e, octets_64e, octets_bytes, le_0, le_1, linkCode_of, roleCode_of, $t,*])

/-- Their number. -/
macro "ev_len" "[" t:Lean.Parser.Tactic.simpLemma,* "]" : tactic => `(tactic|
  simp [enc, lenOf, padTo_zero, bits_length, le_length, unpack_bytes, $t,*])

theorem octets_12_2_2 (n a b : Nat) (r : List Bool) (h : n < 4096) (ha : a < 4) :
    octets (bits 12 n ++ (bits 2 a ++ (bits 2 b ++ r))) = le 2 (n + 4096 * a + 16384 * b) ++ octets r := by
  rw [bits_join' 2 2 a b r ha, bits_join' 12 4 n _ r h]
  have : n + 2 ^ 12 * (a + 2 ^ 2 * b) = n + 4096 * a + 16384 * b := by omega
  rw [this, octets_16]

theorem acl_octets (h pb bc : Nat) (d : List UInt8) (h1 : h < 4096) (h2 : pb < 4) (_h3 : bc < 4) (_h4 : d.length < 65536) :
    serialize ⟨"", [⟨bodyAcl, []⟩]⟩ ((h, pb, bc, ()), ()) (d.map UInt8.toNat) =
      le 2 (h + 4096 * pb + 16384 * bc) ++ le 2 d.length ++ d.map UInt8.toNat := by
  show octets (enc bodyAcl (h, pb, bc, ()) (unpack (d.map UInt8.toNat))) = _
  have e : 8 * d.length / 8 = d.length := by omega
  simp [bodyAcl, enc, lenOf, unpack_bytes, e, octets_12_2_2 _ _ _ _ h1 h2, octets_16, octets_bytes]

theorem sco_octets (h : Nat) (d : List UInt8) (h1 : h < 4096) (_h2 : d.length < 256) :
    serialize ⟨"", [⟨bodySco, []⟩]⟩ ((h, 0, d.map octet, ()), ()) [] = le 2 h ++ le 1 d.length ++ d.map UInt8.toNat := by
  show octets (bits 12 h ++ (bits 2 0 ++ (bits 2 0 ++ (bits 8 (((d.map octet).flatMap (fun x => enc (.uint 8 .done) x [])).length / 8) ++
    (padTo 0 ((d.map octet).flatMap (fun x => enc (.uint 8 .done) x [])) ++ []))))) = _
  have e : 8 * d.length / 8 = d.length := by omega
  have e2 : ∀ r, octets (bits 12 h ++ (bits 2 0 ++ (bits 2 0 ++ r))) = le 2 h ++ octets r := by
    intro r; have := octets_12_2_2 h 0 0 r h1 (by decide); simpa using this
  rw [enc_octet, padTo_zero, unpack_bytes, e, e2, octets_8le, List.append_nil, octets_bytes, List.append_assoc]

theorem name_octets (a : Nat) (n : List UInt8) (h : n.length = 248) :
    event 0x07 bodyRemoteNameRequestComplete (0, a, n.map octet, ()) = ofEvent 0x07 (0 :: le 6 a ++ n.map UInt8.toNat) := by
  have he : enc bodyRemoteNameRequestComplete (0, a, n.map octet, ()) [] = bits 8 0 ++ (bits 48 a ++ unpack (n.map UInt8.toNat)) := by
    show bits 8 0 ++ (bits 48 a ++ (padTo 0 ((n.map octet).flatMap (fun x => enc (.uint 8 .done) x [])) ++ [])) = _
    rw [enc_octet, padTo_zero, List.append_nil]
  refine event_octets 0x07 _ _ _ (by decide) ?_ ?_ ?_
  · rw [he, octets_bits8, octets_48, octets_bytes]; rfl
  · rw [he]; simp only [List.length_append, bits_length, unpack_bytes, List.length_cons, le_length, List.length_map, h, List.cons_append]
  · simp only [List.length_append, List.length_cons, le_length, List.length_map, h, List.cons_append]; decide

theorem eir_octets (x : Extra) (a cod rssi : Nat) (n : List UInt8) (hx : x.clock < 32768) (h : n.length = 240) :
    event 0x2f bodyExtendedInquiryResult (a, x.repetition, cod, x.clock, rssi, n.map octet, ()) =
      ofEvent 0x2f (1 :: le 6 a ++ le 1 x.repetition ++ [0] ++ le 3 cod ++ le 2 x.clock ++ le 1 rssi ++ n.map UInt8.toNat) := by
  have he : enc bodyExtendedInquiryResult (a, x.repetition, cod, x.clock, rssi, n.map octet, ()) [] =
      bits 8 1 ++ (bits 48 a ++ (bits 8 x.repetition ++ (bits 8 0 ++ (bits 24 cod ++ (bits 15 x.clock ++ (bits 1 0 ++
        (bits 8 rssi ++ unpack (n.map UInt8.toNat)))))))) := by
    show bits 8 1 ++ (bits 48 a ++ (bits 8 x.repetition ++ (bits 8 0 ++ (bits 24 cod ++ (bits 15 x.clock ++ (bits 1 0 ++
        (bits 8 rssi ++ (padTo 0 ((n.map octet).flatMap (fun x => enc (.uint 8 .done) x [])) ++ [])))))))) = _
    rw [enc_octet, padTo_zero, List.append_nil]
  refine event_octets 0x2f _ _ _ (by decide) ?_ ?_ ?_
  · rw [he, octets_bits8, octets_48, octets_8le, octets_bits8, octets_24, octets_15_1z _ _ hx, octets_8le, octets_bytes]
    simp
  · rw [he]; simp [bits_length, unpack_bytes, le_length, h]
  · simp [le_length, h]

theorem completed_octets (h n : Nat) (h1 : h < 4096) :
    event 0x13 bodyNumberOfCompletedPackets ([(h, n, ())], ()) = ofEvent 0x13 (1 :: le 2 h ++ le 2 n) := by
  have he : enc bodyNumberOfCompletedPackets ([(h, n, ())], ()) [] = bits 8 1 ++ (bits 12 h ++ (bits 4 0 ++ bits 16 n)) := by
    show bits 8 1 ++ (padTo 0 ((bits 12 h ++ (bits 4 0 ++ (bits 16 n ++ []))) ++ []) ++ []) = _
    simp only [padTo_zero, List.append_nil]
  refine event_octets 0x13 _ _ _ (by decide) ?_ ?_ ?_
  · rw [he, octets_bits8, octets_12_4 _ _ h1, octets_16e]; rfl
  · rw [he]; simp [bits_length, le_length]
  · simp [le_length]

theorem result_octets (x : Extra) (a cod : Nat) (hx : x.clock < 32768) :
    event 0x02 bodyInquiryResult ([(a, x.repetition, cod, x.clock, ())], ()) =
      ofEvent 0x02 (1 :: le 6 a ++ le 1 x.repetition ++ [0, 0] ++ le 3 cod ++ le 2 x.clock) := by
  have he : enc bodyInquiryResult ([(a, x.repetition, cod, x.clock, ())], ()) [] =
      bits 8 1 ++ (bits 48 a ++ (bits 8 x.repetition ++ (bits 8 0 ++ (bits 8 0 ++ (bits 24 cod ++ (bits 15 x.clock ++ bits 1 0)))))) := by
    show bits 8 1 ++ (padTo 0 ((bits 48 a ++ (bits 8 x.repetition ++ (bits 8 0 ++ (bits 8 0 ++ (bits 24 cod ++ (bits 15 x.clock ++
      (bits 1 0 ++ []))))))) ++ []) ++ []) = _
    simp only [padTo_zero, List.append_nil]
  refine event_octets 0x02 _ _ _ (by decide) ?_ ?_ ?_
  · rw [he, octets_bits8, octets_48, octets_8le, octets_bits8, octets_bits8, octets_24, octets_15_1ze _ hx]
    simp
  · rw [he]; simp [bits_length, le_length]
  · simp [le_length]

theorem rssi_octets (x : Extra) (a cod rssi : Nat) (hx : x.clock < 32768) :
    event 0x22 bodyInquiryResultWithRssi ([(a, x.repetition, cod, x.clock, rssi, ())], ()) =
      ofEvent 0x22 (1 :: le 6 a ++ le 1 x.repetition ++ [0] ++ le 3 cod ++ le 2 x.clock ++ le 1 rssi) := by
  have he : enc bodyInquiryResultWithRssi ([(a, x.repetition, cod, x.clock, rssi, ())], ()) [] =
      bits 8 1 ++ (bits 48 a ++ (bits 8 x.repetition ++ (bits 8 0 ++ (bits 24 cod ++ (bits 15 x.clock ++ (bits 1 0 ++ bits 8 rssi)))))) := by
    show bits 8 1 ++ (padTo 0 ((bits 48 a ++ (bits 8 x.repetition ++ (bits 8 0 ++ (bits 24 cod ++ (bits 15 x.clock ++
      (bits 1 0 ++ (bits 8 rssi ++ []))))))) ++ []) ++ []) = _
    simp only [padTo_zero, List.append_nil]
  refine event_octets 0x22 _ _ _ (by decide) ?_ ?_ ?_
  · rw [he, octets_bits8, octets_48, octets_8le, octets_bits8, octets_24, octets_15_1z _ _ hx, octets_8lee]
    simp
  · rw [he]; simp [bits_length, le_length]
  · simp [le_length]

theorem power_octets (x : Extra) (r c st h phy : Nat) (h2 : h < 4096) : toHost x (.power st h phy) = told r c (.power st h phy) := by
  refine congrArg (fun l => (4, l)) ?_
  show octets (enc bodyEvent (62, ()) (enc bodyLeMetaEvent (33, ()) (enc bodyLeTransmitPowerReporting (st, h, 2, phy, 0xe2, 0, 0x7f, ()) []))) = _
  simp [bodyEvent, bodyLeMetaEvent, bodyLeTransmitPowerReporting, enc, lenOf, bits_length, octets_bits8, octets, octets_12_4 _ _ h2,
    octets_8e, le_length, le]

/-! ### Reading -/

theorem get_le (k n : Nat) (r : List Nat) : get k (le k n ++ r) = some (n % 256 ^ k, r) := by
  induction k generalizing n with
  | zero => simp [get, le, Nat.mod_one]
  | succ k ih =>
    simp only [le, List.cons_append, get, ih]
    rw [Nat.pow_succ, Nat.mul_comm (256 ^ k) 256, Nat.mod_mul]

theorem get_lee (k n : Nat) : get k (le k n) = some (n % 256 ^ k, []) := by
  have := get_le k n []; rwa [List.append_nil] at this

theorem get_lt (k n : Nat) (r : List Nat) (h : n < 256 ^ k) : get k (le k n ++ r) = some (n, r) := by
  rw [get_le, Nat.mod_eq_of_lt h]

theorem get_lte (k n : Nat) (h : n < 256 ^ k) : get k (le k n) = some (n, []) := by
  rw [get_lee, Nat.mod_eq_of_lt h]

theorem get_1 (b : Nat) (r : List Nat) : get 1 (b :: r) = some (b, r) := by simp [get]
theorem get_rep2 (n : Nat) (r : List Nat) : get 2 (le 1 n ++ 0 :: r) = some (n % 256, r) := by simp [get, le]
theorem get_rep3 (n : Nat) (r : List Nat) : get 3 (le 1 n ++ 0 :: 0 :: r) = some (n % 256, r) := by simp [get, le]

theorem link_of (l : LinkType) : link (ofLink l) = some l := by cases l <;> rfl
theorem newRole_of (r : Role) : newRole (ofNewRole r) = some r := by cases r <;> rfl
theorem ofLink_lt (l : LinkType) : ofLink l < 256 := by cases l <;> decide
theorem ofNewRole_lt (r : Role) : ofNewRole r < 256 := by cases r <;> decide

theorem bytes_of (d : List UInt8) : bytes (d.map UInt8.toNat) = d := by
  simp only [bytes, List.map_map]
  have : (UInt8.ofNat ∘ UInt8.toNat) = id := by funext u; simp
  rw [this, List.map_id]

theorem hears_event (code : Nat) (ps : List Nat) : hears (ofEvent code ps) = parameters? code ps := by
  simp [hears, ofEvent]

/-- A host reads the parameters. -/
macro "ev_get" "[" t:Lean.Parser.Tactic.simpLemma,* "]" : tactic => `(tactic|
  simp [parameters?, List.append_assoc, get_1, get_le, get_lee, get_rep2, get_rep3, link_of, newRole_of, ofLink_lt, ofNewRole_lt,
    bytes_of, Nat.mod_eq_of_lt, seen, $t,*])

end Verif.WireBr
