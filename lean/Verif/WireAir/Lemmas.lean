import Verif.WireAir.Spec
import Verif.WireLink.EventsLemmas

/-!
# Lemmas for C132
-/
namespace Verif.WireAir

open Verif.Pdl Verif.Pdl.LinkLayer
open Verif.Wire (le data elems ofData ofData_lt le_length octets_bits8 octets_16 octets_16e octets_48 octets_elems padTo_zero)
open Verif.WireBr (octet octets_8le octets_8lee octets_64e enc_octet le_0 le_1)
open Verif.WireLink (ofReason code reason Known)

theorem octet_elems (x : List UInt8) : x.map octet = elems (ofData x) := by
  simp only [elems, ofData, List.map_map]; rfl

theorem data_octet (x : List UInt8) : data (x.map octet) = x := by rw [octet_elems]; exact Wire.data_of x

theorem fits_octet (x : List UInt8) : (x.map octet).all (fun y => fits (.uint 8 .done) y 0) = true := by
  rw [octet_elems]; exact WireLink.fits_bytes x

theorem header (t s d : Nat) (r : List Bool) :
    octets (bits 8 t ++ (bits 48 s ++ (bits 48 d ++ r))) = t % 256 :: (le 6 s ++ (le 6 d ++ octets r)) := by
  rw [octets_bits8, octets_48, octets_48]

theorem build_eq (t : Nat) (f : Fmt) (s d : Nat) (v : f.T) :
    build t f s d v = t % 256 :: (le 6 s ++ (le 6 d ++ octets (enc f v []))) := by
  show octets (bits 8 t ++ (bits 48 s ++ (bits 48 d ++ (enc f v [] ++ [])))) = _
  rw [List.append_nil, header]

theorem built (t : Nat) (f : Fmt) (s d : Nat) (v : f.T) (ht : t < 256) (hs : Address s) (hd : Address d)
    (hw : wf [] 0 f = true) (hf : fits f v 0 = true) :
    view t f (build t f s d v) = some (s, d, v) ∧ typeOf (build t f s d v) = some t := by
  have hal : width f v 0 % 8 = 0 := packetWidth_aligned [⟨f, []⟩] (v, ()) 0 hw
  have hlen : (enc f v []).length = width f v 0 := enc_length f v []
  have hwa : wfAll (packet t f).levels = true := by
    simp only [packet, wfAll, hw, Bool.and_true]; decide
  have hs' : s < 2 ^ 48 := hs
  have hd' : d < 2 ^ 48 := hd
  have hh : fits bodyLinkLayerPacket (t, s, d, ()) (width f v 0) = true := by
    simp [bodyLinkLayerPacket, fits, ht, hs', hd']
  have h2 : field bodyLinkLayerPacket 0 (t, s, d, ()) = some t := rfl
  have hfit : fitsAll (packet t f).levels ((t, s, d, ()), (v, ())) 0 = true := by
    simp only [packet, fitsAll, packetWidth, Nat.mul_zero, hh, h2, hf, List.all_cons, List.all_nil, beq_self_eq_true, Bool.and_self]
  have hd1 := decAll_encAll (packet t f).levels ((t, s, d, ()), (v, ())) [] 0 hwa hfit rfl (.inr rfl)
  have hE : encAll (packet t f).levels ((t, s, d, ()), (v, ())) [] = bits 8 t ++ (bits 48 s ++ (bits 48 d ++ enc f v [])) := by
    show bits 8 t ++ (bits 48 s ++ (bits 48 d ++ (enc f v [] ++ []))) = _
    rw [List.append_nil]
  have hu : unpack (build t f s d v) = encAll (packet t f).levels ((t, s, d, ()), (v, ())) [] := by
    refine unpack_octets _ (13 + width f v 0 / 8) ?_
    show (encAll (packet t f).levels ((t, s, d, ()), (v, ())) []).length = _
    rw [hE]; simp only [List.length_append, bits_length, hlen]; omega
  constructor
  · simp only [view, parse, hu, hd1]
  · have h3 := decAll_encAll [⟨bodyLinkLayerPacket, []⟩] ((t, s, d, ()), ()) (enc f v []) (width f v 0 / 8) (by decide)
      (by simp only [fitsAll, packetWidth, List.all_nil, Bool.and_true]
          have : 8 * (width f v 0 / 8) = width f v 0 := by omega
          rw [this, hh])
      (by omega) (.inl rfl)
    have h4 : encAll [⟨bodyLinkLayerPacket, []⟩] ((t, s, d, ()), ()) (enc f v []) =
        encAll (packet t f).levels ((t, s, d, ()), (v, ())) [] := by
      rw [hE]; show bits 8 t ++ (bits 48 s ++ (bits 48 d ++ (enc f v [] ++ []))) = _
      rw [List.append_nil]
    rw [h4] at h3
    simp only [typeOf, parse, hu, h3]

theorem bytes_octets (x : List UInt8) (r : List Bool) :
    octets (padTo 0 ((x.map octet).flatMap (fun y => enc (.uint 8 .done) y [])) ++ r) = x.map UInt8.toNat ++ octets r := by
  rw [enc_octet, padTo_zero, octets_elems _ _ (WireBr.bytes_lt x)]

theorem octets_64 (n : Nat) (r : List Bool) : octets (bits 64 n ++ r) = le 8 n ++ octets r := Wire.octets_bits 8 n r

theorem of_enc (t : Nat) (f : Fmt) (s d : Nat) (v : f.T) (ps : List Nat) (ht : t < 256) (h : octets (enc f v []) = ps) :
    build t f s d v = [t] ++ le 6 s ++ le 6 d ++ ps := by
  rw [build_eq, h, Nat.mod_eq_of_lt ht]; simp

theorem array_fits (x : List UInt8) : ∀ y ∈ x.map octet, fits (.uint 8 .done) y 0 = true := List.all_eq_true.mp (fits_octet x)

theorem array_length {x : List UInt8} {n : Nat} (h : x.length = n) : (x.map octet).length = n := (List.length_map ..).trans h

/-- The octets of the fields. -/
macro "air_enc" "[" t:Lean.Parser.Tactic.simpLemma,* "]" : tactic => `(tactic|
  simp [values, enc, octets, octets_8le, octets_16, octets_8lee, octets_16e, octets_64e, le_0, le_1,
    WireLink.code_of, $t,*])

/-- The values fit their fields, and reading gives them back. -/
macro "air_fits" "[" t:Lean.Parser.Tactic.simpLemma,* "]" : tactic => `(tactic| simp [fits, fits_octet, $t,*])

theorem indicate_lt (a b : Link.Phy) : Link.indicate a b < 256 := by cases a <;> cases b <;> decide

theorem wanted_lt {d : Link.Dev} (h : d.supported < 256) (any : Bool) {n : Nat} (hn : n < 256) : Link.wanted d any n < 256 := by
  unfold Link.wanted; split <;> assumption

end Verif.WireAir
