import Verif.WireLe.Model
import Verif.WireLe.Spec
import Verif.WireBr.EventsLemmas
import Verif.Ll.ReportLemmas

/-!
# Lemmas for C129
-/
namespace Verif.WireLe

open Verif.Le Verif.Ll Verif.Pdl Verif.Pdl.Hci
open Verif.Wire (le yes ofType ofAddress le_length octets_bits8 octets_16 octets_48 octets_16e octets_12_4 octets_12_4e octets_2_6
  address_of address_lt ofType_lt octet_lt padTo_zero)
open Verif.WireBr (octet event ofEvent get bytes octets_8le octets_8lee enc_octet octets_bytes unpack_bytes le_0 le_1 get_le get_lee
  get_1 bytes_of event_octets)

/-! ### Writing -/

theorem subevent_octets (code : Nat) (f : Fmt) (v : f.T) (ps : List Nat) (hc : code < 256) (he : octets (enc f v []) = ps)
    (hn : (enc f v []).length = 8 * ps.length) (hl : ps.length < 255) : subevent code f v = ofSubevent code ps := by
  refine congrArg (fun l => (4, l)) ?_
  show octets (enc bodyEvent (62, ()) (enc bodyLeMetaEvent (code, ()) (enc f v []))) = _
  have h1 : (8 + 8 * ps.length) / 8 = ps.length + 1 := by omega
  have h2 : (ps.length + 1) % 256 = ps.length + 1 := by omega
  simp only [bodyEvent, bodyLeMetaEvent, enc, lenOf, List.append_nil, List.length_append, bits_length, hn]
  simp [h1, h2, octets_bits8, he, Nat.mod_eq_of_lt hc]

theorem typeCode_of (t : AddressType) : typeCode t = ofType t := by cases t <;> rfl
theorem phyCode_of (p : PhyType) : phyCode p = ofPhy p := by cases p <;> rfl
theorem roleCode_of (r : Ll.Role) : roleCode r = ofRole r := by cases r <;> rfl
theorem reportCode_of (t : ReportType) : reportCode t = ofReport t := by
  cases t with
  | pdu t => cases t <;> rfl
  | scanResponse => rfl
theorem bitOf_yes (b : Bool) : bitOf b = yes b := rfl
theorem peerAddr_of (c : LeConn) : peerAddr c = peer c := by
  unfold peerAddr peer; by_cases h : c.resolved = ⟨0, .publicDevice⟩ <;> simp [h]
theorem peerPrivate_of (c : LeConn) : peerPrivate c = peerUsed c := by
  unfold peerPrivate peerUsed; by_cases h : c.resolved = ⟨0, .publicDevice⟩ <;> simp [h]
theorem localPrivate_of (x : Extra) (c : LeConn) : localPrivate x c = localUsed x.pub x.random c := by
  unfold localPrivate localUsed
  by_cases h : c.own.address = x.pub <;> by_cases h' : c.own.address = x.random <;> simp [h, h']

theorem div8 (n : Nat) : 8 * n / 8 = n := by omega

theorem directed_octets (t a d rssi : Nat) :
    subevent 0x0b bodyLeDirectedAdvertisingReport ([(1, t, a, 1, d, rssi, ())], ()) =
      ofSubevent 0x0b ([1, 1] ++ (le 1 t ++ le 6 a) ++ [1] ++ le 6 d ++ le 1 rssi) := by
  have he : enc bodyLeDirectedAdvertisingReport ([(1, t, a, 1, d, rssi, ())], ()) [] =
      bits 8 1 ++ (bits 8 1 ++ (bits 8 t ++ (bits 48 a ++ (bits 8 1 ++ (bits 48 d ++ bits 8 rssi))))) := by
    show bits 8 1 ++ (padTo 0 ((bits 8 1 ++ (bits 8 t ++ (bits 48 a ++ (bits 8 1 ++ (bits 48 d ++ (bits 8 rssi ++ [])))))) ++ []) ++ []) = _
    simp only [padTo_zero, List.append_nil]
  refine subevent_octets 0x0b _ _ _ (by decide) ?_ ?_ ?_
  · rw [he, octets_bits8, octets_bits8, octets_8le, octets_48, octets_bits8, octets_48, octets_8lee]; simp
  · rw [he]; simp [bits_length, le_length]
  · simp [le_length]

theorem legacy_octets (k t a rssi : Nat) (d : List UInt8) (h : d.length ≤ 243) :
    subevent 0x02 bodyLeAdvertisingReport ([(k, t, a, d.map octet, rssi, ())], ()) =
      ofSubevent 0x02 (1 :: le 1 k ++ (le 1 t ++ le 6 a) ++ le 1 d.length ++ d.map UInt8.toNat ++ le 1 rssi) := by
  have he : enc bodyLeAdvertisingReport ([(k, t, a, d.map octet, rssi, ())], ()) [] =
      bits 8 1 ++ (bits 8 k ++ (bits 8 t ++ (bits 48 a ++ (bits 8 d.length ++ (unpack (d.map UInt8.toNat) ++ bits 8 rssi))))) := by
    show bits 8 1 ++ (padTo 0 ((bits 8 k ++ (bits 8 t ++ (bits 48 a ++
      (bits 8 (((d.map octet).flatMap (fun x => enc (.uint 8 .done) x [])).length / 8) ++
      (padTo 0 ((d.map octet).flatMap (fun x => enc (.uint 8 .done) x [])) ++ (bits 8 rssi ++ [])))))) ++ []) ++ []) = _
    rw [enc_octet, unpack_bytes, div8]
    simp only [padTo_zero, List.append_nil]
  refine subevent_octets 0x02 _ _ _ (by decide) ?_ ?_ ?_
  · rw [he, octets_bits8, octets_8le, octets_8le, octets_48, octets_8le,
      Verif.Wire.octets_append _ _ d.length (unpack_bytes d), octets_bytes, octets_8lee]
    simp
  · rw [he]; simp [bits_length, unpack_bytes, le_length]; omega
  · simp [le_length]; omega

theorem kind_octets (a b c d e f : Bool) (r : List Bool) :
    octets (bits 1 (bitOf a) ++ (bits 1 (bitOf b) ++ (bits 1 (bitOf c) ++ (bits 1 (bitOf d) ++ (bits 1 (bitOf e) ++
      (bits 2 (bitOf f) ++ (bits 9 0 ++ r))))))) =
    le 2 (yes a + 2 * yes b + 4 * yes c + 8 * yes d + 16 * yes e + 32 * yes f) ++ octets r := by
  cases a <;> cases b <;> cases c <;> cases d <;> cases e <;> cases f <;> rfl

/-- The bits of an extended report. -/
def extBits (a b c d e f : Bool) (t w p s sid power rssi i dt da : Nat) (x : List UInt8) : List Bool :=
  bits 8 1 ++ (bits 1 (bitOf a) ++ (bits 1 (bitOf b) ++ (bits 1 (bitOf c) ++ (bits 1 (bitOf d) ++ (bits 1 (bitOf e) ++
    (bits 2 (bitOf f) ++ (bits 9 0 ++ (bits 8 t ++ (bits 48 w ++ (bits 8 p ++ (bits 8 s ++ (bits 8 sid ++ (bits 8 power ++
    (bits 8 rssi ++ (bits 16 i ++ (bits 8 dt ++ (bits 48 da ++ (bits 8 x.length ++ unpack (x.map UInt8.toNat)))))))))))))))))))

theorem ext_enc (a b c d e f : Bool) (t w p s sid power rssi i dt da : Nat) (x : List UInt8) :
    enc bodyLeExtendedAdvertisingReport
      ([(bitOf a, bitOf b, bitOf c, bitOf d, bitOf e, bitOf f, t, w, p, s, sid, power, rssi, i, dt, da, x.map octet, ())], ()) [] =
      extBits a b c d e f t w p s sid power rssi i dt da x := by
  show bits 8 1 ++ (padTo 0 ((bits 1 (bitOf a) ++ (bits 1 (bitOf b) ++ (bits 1 (bitOf c) ++ (bits 1 (bitOf d) ++ (bits 1 (bitOf e) ++
    (bits 2 (bitOf f) ++ (bits 9 0 ++ (bits 8 t ++ (bits 48 w ++ (bits 8 p ++ (bits 8 s ++ (bits 8 sid ++ (bits 8 power ++
    (bits 8 rssi ++ (bits 16 i ++ (bits 8 dt ++ (bits 48 da ++
    (bits 8 (((x.map octet).flatMap (fun x => enc (.uint 8 .done) x [])).length / 8) ++
    (padTo 0 ((x.map octet).flatMap (fun x => enc (.uint 8 .done) x [])) ++ []))))))))))))))))))) ++ []) ++ []) = _
  rw [enc_octet, unpack_bytes, div8, padTo_zero, padTo_zero, List.append_nil, List.append_nil, List.append_nil]
  rfl

theorem extBits_octets (a b c d e f : Bool) (t w p s sid power rssi i dt da : Nat) (x : List UInt8) :
    octets (extBits a b c d e f t w p s sid power rssi i dt da x) =
      1 :: le 2 (yes a + 2 * yes b + 4 * yes c + 8 * yes d + 16 * yes e + 32 * yes f) ++ (le 1 t ++ le 6 w) ++ le 1 p ++
      le 1 s ++ le 1 sid ++ le 1 power ++ le 1 rssi ++ le 2 i ++ (le 1 dt ++ le 6 da) ++ le 1 x.length ++ x.map UInt8.toNat := by
  rw [extBits, octets_bits8, kind_octets, octets_8le, octets_48, octets_8le, octets_8le, octets_8le, octets_8le, octets_8le, octets_16,
      octets_8le, octets_48, octets_8le, octets_bytes]
  generalize yes a + 2 * yes b + 4 * yes c + 8 * yes d + 16 * yes e + 32 * yes f = k
  simp only [List.append_assoc, List.cons_append, Nat.reduceMod]

theorem extBits_length (a b c d e f : Bool) (t w p s sid power rssi i dt da : Nat) (x : List UInt8) :
    (extBits a b c d e f t w p s sid power rssi i dt da x).length = 8 * (x.length + 25) := by
  simp only [extBits, List.length_append, bits_length, unpack_bytes]
  omega

theorem ext_octets (a b c d e f : Bool) (t w p s sid power rssi i dt da : Nat) (x : List UInt8) (h : x.length ≤ 229) :
    subevent 0x0d bodyLeExtendedAdvertisingReport
      ([(bitOf a, bitOf b, bitOf c, bitOf d, bitOf e, bitOf f, t, w, p, s, sid, power, rssi, i, dt, da, x.map octet, ())], ()) =
    ofSubevent 0x0d (1 :: le 2 (yes a + 2 * yes b + 4 * yes c + 8 * yes d + 16 * yes e + 32 * yes f) ++ (le 1 t ++ le 6 w) ++ le 1 p ++
      le 1 s ++ le 1 sid ++ le 1 power ++ le 1 rssi ++ le 2 i ++ (le 1 dt ++ le 6 da) ++ le 1 x.length ++ x.map UInt8.toNat) := by
  have hl : ∀ k : Nat, (1 :: le 2 k ++ (le 1 t ++ le 6 w) ++ le 1 p ++ le 1 s ++ le 1 sid ++ le 1 power ++ le 1 rssi ++ le 2 i ++
      (le 1 dt ++ le 6 da) ++ le 1 x.length ++ x.map UInt8.toNat).length = x.length + 25 := by
    intro k
    simp only [List.length_append, List.length_cons, List.cons_append, le_length, List.length_map]
    omega
  refine subevent_octets 0x0d _ _ _ (by decide) ?_ ?_ ?_
  · rw [ext_enc, extBits_octets]
  · rw [ext_enc, extBits_length, hl]
  · rw [hl]; omega

theorem periodic_octets (h power rssi : Nat) (c : Bool) (d : List UInt8) (h1 : h < 4096) (h2 : d.length ≤ 247) :
    subevent 0x0f bodyLePeriodicAdvertisingReportV1 (h, power, rssi, 0xff, bitOf c, d.map octet, ()) =
      ofSubevent 0x0f (le 2 h ++ le 1 power ++ le 1 rssi ++ [0xff] ++ [yes c] ++ le 1 d.length ++ d.map UInt8.toNat) := by
  have he : enc bodyLePeriodicAdvertisingReportV1 (h, power, rssi, 0xff, bitOf c, d.map octet, ()) [] =
      bits 12 h ++ (bits 4 0 ++ (bits 8 power ++ (bits 8 rssi ++ (bits 8 0xff ++ (bits 2 (bitOf c) ++ (bits 6 0 ++ (bits 8 d.length ++
        unpack (d.map UInt8.toNat)))))))) := by
    show bits 12 h ++ (bits 4 0 ++ (bits 8 power ++ (bits 8 rssi ++ (bits 8 0xff ++ (bits 2 (bitOf c) ++ (bits 6 0 ++
      (bits 8 (((d.map octet).flatMap (fun x => enc (.uint 8 .done) x [])).length / 8) ++
      (padTo 0 ((d.map octet).flatMap (fun x => enc (.uint 8 .done) x [])) ++ [])))))))) = _
    rw [enc_octet, unpack_bytes, div8]
    simp only [padTo_zero, List.append_nil]
  have hc : bitOf c < 4 := by cases c <;> decide
  refine subevent_octets 0x0f _ _ _ (by decide) ?_ ?_ ?_
  · rw [he, octets_12_4 _ _ h1, octets_8le, octets_8le, octets_bits8, octets_2_6 _ _ hc, octets_8le, octets_bytes, bitOf_yes]
    simp
  · rw [he]; simp [bits_length, unpack_bytes, le_length]; omega
  · simp [le_length]; omega

/-- The octets of the fields of an event. -/
macro "le_enc" "[" t:Lean.Parser.Tactic.simpLemma,* "]" : tactic => `(tactic|
  simp [enc, lenOf, octets, octets_8le, octets_16, octets_48, octets_8lee, octets_16e, le_0, le_1, typeCode_of, roleCode_of, ofTyped,
    ofAddress, ofParams, peerAddr_of, peerPrivate_of, localPrivate_of, $t,*])

/-- Their number. -/
macro "le_len" "[" t:Lean.Parser.Tactic.simpLemma,* "]" : tactic => `(tactic|
  simp [enc, lenOf, bits_length, le_length, ofTyped, ofAddress, ofParams, $t,*])

theorem direct_of (o : Option AddressWithType) :
    le 1 (match o with | some a => typeCode a.type | none => 0xff) ++ le 6 (match o with | some a => a.address.toNat | none => 0) =
      ofDirect o := by
  cases o with
  | none => rfl
  | some a => simp only [typeCode_of]; rfl

/-! ### Reading -/

theorem typeOf_of (t : AddressType) : typeOf (ofType t) = some t := by cases t <;> rfl
theorem phyOf_of (p : PhyType) : phyOf (ofPhy p) = some p := by cases p <;> rfl
theorem roleOf_of (r : Ll.Role) : roleOf (ofRole r) = some r := by cases r <;> rfl
theorem reportOf_of (t : ReportType) : reportOf (ofReport t) = some t := by
  cases t with
  | pdu t => cases t <;> rfl
  | scanResponse => rfl
theorem ofPhy_mod (p : PhyType) : ofPhy p % 256 = ofPhy p := by cases p <;> rfl
theorem ofRole_mod (r : Ll.Role) : ofRole r % 256 = ofRole r := by cases r <;> rfl
theorem ofType_mod (t : AddressType) : ofType t % 256 = ofType t := by cases t <;> rfl
theorem ofReport_mod (t : ReportType) : ofReport t % 256 = ofReport t := by
  cases t with
  | pdu t => cases t <;> rfl
  | scanResponse => rfl

theorem getAddress_of (a : Address) (r : List Nat) : getAddress (ofAddress a ++ r) = some (a, r) := by
  have h : a.toNat % 256 ^ 6 = a.toNat := Nat.mod_eq_of_lt (address_lt a)
  rw [getAddress, ofAddress, get_le, h]
  simp only [Option.map_some, address_of]

theorem getTyped_of (a : AddressWithType) (r : List Nat) : getTyped (ofTyped a ++ r) = some (a, r) := by
  simp [getTyped, ofTyped, List.append_assoc, get_le, ofType_mod, typeOf_of, getAddress_of]

theorem getDirect_of (o : Option AddressWithType) (r : List Nat) : getDirect (ofDirect o ++ r) = some (o, r) := by
  cases o with
  | none => simp [getDirect, ofDirect, WireBr.get, le]
  | some a =>
    have h : (ofTyped a ++ r).head? ≠ some 0xff := by
      obtain ⟨a, t⟩ := a
      cases t <;> simp [ofTyped, ofType, le]
    show (if (ofTyped a ++ r).head? = some 0xff then _ else _) = _
    rw [if_neg h]
    show Option.map _ (getTyped (ofTyped a ++ r)) = _
    rw [getTyped_of]; rfl

theorem getParams_of (p : LinkParams) (h1 : p.interval < 65536) (h2 : p.latency < 65536) (h3 : p.timeout < 65536) :
    getParams (ofParams p) = some (p, [0]) := by
  simp [getParams, ofParams, List.append_assoc, get_le, Nat.mod_eq_of_lt h1, Nat.mod_eq_of_lt h2, Nat.mod_eq_of_lt h3]

theorem getData_of (d : List UInt8) (r : List Nat) (h : d.length < 256) :
    getData (le 1 d.length ++ (d.map UInt8.toNat ++ r)) = some (d, r) := by
  have e : (d.map UInt8.toNat ++ r).take d.length = d.map UInt8.toNat := List.take_left' (List.length_map _)
  have e2 : (d.map UInt8.toNat ++ r).drop d.length = r := List.drop_left' (List.length_map _)
  simp [getData, get_le, Nat.mod_eq_of_lt h, e, e2, bytes_of]

theorem getData_end (d : List UInt8) (h : d.length < 256) : getData (le 1 d.length ++ d.map UInt8.toNat) = some (d, []) := by
  have := getData_of d [] h; rwa [List.append_nil] at this

theorem kind_bits : ∀ a b c d e f : Bool,
    yes a + 2 * yes b + 4 * yes c + 8 * yes d + 16 * yes e + 32 * yes (!f) < 65536 ∧
    bit (yes a + 2 * yes b + 4 * yes c + 8 * yes d + 16 * yes e + 32 * yes (!f)) 0 = a ∧
    bit (yes a + 2 * yes b + 4 * yes c + 8 * yes d + 16 * yes e + 32 * yes (!f)) 1 = b ∧
    bit (yes a + 2 * yes b + 4 * yes c + 8 * yes d + 16 * yes e + 32 * yes (!f)) 2 = c ∧
    bit (yes a + 2 * yes b + 4 * yes c + 8 * yes d + 16 * yes e + 32 * yes (!f)) 3 = d ∧
    bit (yes a + 2 * yes b + 4 * yes c + 8 * yes d + 16 * yes e + 32 * yes (!f)) 4 = e ∧
    decide ((yes a + 2 * yes b + 4 * yes c + 8 * yes d + 16 * yes e + 32 * yes (!f)) / 32 % 4 = 0) = f := by
  decide

theorem kind_of (r : ExtReport) : ofKind r < 65536 ∧ bit (ofKind r) 0 = r.connectable ∧ bit (ofKind r) 1 = r.scannable ∧
    bit (ofKind r) 2 = r.directed ∧ bit (ofKind r) 3 = r.scanResponse ∧ bit (ofKind r) 4 = r.legacy ∧
    decide (ofKind r / 32 % 4 = 0) = r.complete := by
  obtain ⟨a, b, c, d, e, _, _, _, _, _, _, f, _⟩ := r
  exact kind_bits a b c d e f

theorem get_2 (a b : Nat) (r : List Nat) : get 2 (a :: b :: r) = some (a + 256 * b, r) := by simp [WireBr.get]
theorem get_power (a b : Nat) (r : List Nat) : get 2 (le 1 a ++ (le 1 b ++ r)) = some (a % 256 + 256 * (b % 256), r) := by
  simp [WireBr.get, le]
theorem get_power3 (a b c : Nat) (r : List Nat) :
    get 3 (le 1 a ++ (le 1 b ++ c :: r)) = some (a % 256 + 256 * (b % 256 + 256 * c), r) := by
  simp [WireBr.get, le]

theorem hears_event (code : Nat) (ps : List Nat) (h : ps.length < 256) : hears (ofEvent code ps) = event? code ps := by
  simp [hears, ofEvent, h]

theorem hears_subevent (code : Nat) (ps : List Nat) (h : ps.length < 255) : hears (ofSubevent code ps) = subevent? code ps := by
  rw [ofSubevent, hears_event _ _ (by simp; omega)]
  simp [event?, get_1]

/-- A host reads the parameters. -/
macro "le_get" "[" t:Lean.Parser.Tactic.simpLemma,* "]" : tactic => `(tactic|
  simp [subevent?, event?, List.append_assoc, get_1, get_2, get_le, get_lee, getTyped_of, getAddress_of, getData_of, getData_end,
    ofPhy_mod, phyOf_of, ofRole_mod, roleOf_of, ofReport_mod, reportOf_of, learns, $t,*])

theorem ext_get (k : Nat) (a : AddressWithType) (p s : PhyType) (sid power rssi i : Nat) (o : Option AddressWithType) (d : List UInt8)
    (h1 : k < 65536) (h2 : sid < 256) (h3 : i < 65536) (h4 : d.length < 256) :
    subevent? 0x0d (1 :: le 2 k ++ ofTyped a ++ le 1 (ofPhy p) ++ le 1 (ofPhy s) ++ le 1 sid ++ le 1 power ++ le 1 rssi ++ le 2 i ++
      ofDirect o ++ le 1 d.length ++ d.map UInt8.toNat) =
    some (.out (.extReport ⟨bit k 0, bit k 1, bit k 2, bit k 3, bit k 4, a, p, s, sid, i, o, decide (k / 32 % 4 = 0), d⟩)) := by
  have e1 : k % 256 ^ 2 = k := Nat.mod_eq_of_lt h1
  have e2 : sid % 256 ^ 1 = sid := Nat.mod_eq_of_lt h2
  have e3 : i % 256 ^ 2 = i := Nat.mod_eq_of_lt h3
  have e4 : ∀ p, ofPhy p % 256 ^ 1 = ofPhy p := ofPhy_mod
  simp only [subevent?, List.append_assoc, List.cons_append, get_1, get_power, get_le, getTyped_of, getDirect_of, getData_end _ h4, e1, e2,
    e3, e4, phyOf_of, Option.bind_eq_bind, Option.bind_some]

end Verif.WireLe
