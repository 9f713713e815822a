import Verif.WireBr.Model
import Verif.WireBr.Spec
import Verif.Wire.Lemmas

/-!
# Lemmas for C127
-/
namespace Verif.WireBr

open Verif.Pol Verif.Pdl Verif.Pdl.Hci Verif.Wire
open Verif.Br (Role)
open Verif.Sco (ConnParams)

theorem octets_32 (n : Nat) (r : List Bool) : octets (bits 32 n ++ r) = le 4 n ++ octets r := octets_bits 4 n r

theorem octets_32e (n : Nat) : octets (bits 32 n) = le 4 n := by
  have := octets_32 n []; rw [List.append_nil] at this; rw [this]; exact List.append_nil _

theorem octets_64e (n : Nat) : octets (bits 64 n) = le 8 n := by
  have := octets_bits 8 n []; rw [List.append_nil] at this; rw [this]; exact List.append_nil _

theorem octets_10_6 (n : Nat) (r : List Bool) (h : n < 1024) : octets (bits 10 n ++ (bits 6 0 ++ r)) = le 2 n ++ octets r := by
  rw [bits_join' 10 6 n 0 r h]
  simp only [Nat.reduceAdd, Nat.mul_zero, Nat.add_zero, octets_16]

theorem octets_15_1 (n m : Nat) (r : List Bool) (h : n < 32768) :
    octets (bits 15 n ++ (bits 1 m ++ r)) = le 2 (n + 32768 * m) ++ octets r := by
  rw [bits_join' 15 1 n m r h]
  simp only [Nat.reduceAdd, Nat.reducePow, octets_16]

theorem octets_15_1e (n m : Nat) (h : n < 32768) : octets (bits 15 n ++ bits 1 m) = le 2 (n + 32768 * m) := by
  have := octets_15_1 n m [] h; rw [List.append_nil] at this; rw [this]; exact List.append_nil _

theorem octets_lap (k : Nat) (r : List Bool) (h : k < 64) :
    octets (bits 6 k ++ (bits 2 0 ++ (bits 16 0x9e8b ++ r))) = ofLap k ++ octets r := by
  rw [bits_join' 6 2 k 0 _ h, octets_bits8, octets_16]
  have h1 : (0x9e8b00 + k) % 256 = k := by omega
  have h2 : (0x9e8b00 + k) / 256 = 0x9e8b := by omega
  have h3 : (k + 2 ^ 6 * 0) % 256 = k := by omega
  simp only [ofLap, le, h1, h2, h3]
  rfl

theorem u32_lt (x : UInt32) : x.toNat < 4294967296 := x.toNat_lt
theorem u16_lt (x : UInt16) : x.toNat < 65536 := x.toNat_lt
theorem u8_lt (x : UInt8) : x.toNat < 256 := x.toNat_lt
theorem ofRole_lt (r : Role) : ofRole r < 256 := by cases r <;> decide
theorem role_of (r : Role) : role (ofRole r) = some r := by cases r <;> rfl
theorem flag_of (b : Bool) : flag (yes b) = some b := by cases b <;> rfl
theorem not_of (b : Bool) : (yes (!b) == 0) = b := by cases b <;> rfl
theorem scans_lt (i p : Bool) : yes i + 2 * yes p < 256 := by cases i <;> cases p <;> decide
theorem scans_of (i p : Bool) : ((yes i + 2 * yes p == 3) || (yes i + 2 * yes p == 1)) = i ∧
    ((yes i + 2 * yes p == 3) || (yes i + 2 * yes p == 2)) = p := by cases i <;> cases p <;> decide
theorem sync_of (p : ConnParams) : syncParams p.txBandwidth.toNat p.rxBandwidth.toNat p.maxLatency.toNat p.voiceSetting.toNat
    p.effort.toNat p.packetType.toNat = p := by
  simp [syncParams]

/-- The values fit their fields. -/
macro "br_fits" "[" t:Lean.Parser.Tactic.simpLemma,* "]" : tactic => `(tactic|
  simp [fits, yes_lt, yes_lt8, ofRole_lt, scans_lt, u32_lt, u16_lt, u8_lt, $t,*])

/-- The octets of the fields. -/
macro "br_enc" "[" t:Lean.Parser.Tactic.simpLemma,* "]" : tactic => `(tactic|
  simp [enc, parameters, ofSync, octets, octets_bits8, octets_16, octets_32, octets_48, octets_8e, octets_16e, octets_32e, octets_48e,
    octets_64e, mod8, ofRole_lt, yes_lt8, scans_lt, u8_lt, $t,*])

/-- The command is not too long. -/
macro "br_len" : tactic => `(tactic| simp [parameters, ofSync, le_length])

/-- What is handed to the controller. -/
macro "br_call" "[" t:Lean.Parser.Tactic.simpLemma,* "]" : tactic => `(tactic|
  simp [role_of, flag_of, not_of, scans_of, sync_of, $t,*])

/-! ## The answers -/

theorem number_lt (c : PCmd) : number c < 65536 := by
  cases c with
  | base c => cases c <;> simp [number]
  | _ => simp [number]

theorem opcode_of (u : Unused) (c : PCmd) : opcode (octetsOf u c) = number c := by
  have h := number_lt c
  show number c % 256 + 256 * (number c / 256 % 256) = number c
  omega

theorem complete_octets (op : Nat) (f : Fmt) (v : f.T) (ps : List Nat) (he : octets (enc f v []) = ps)
    (hn : (enc f v []).length = 8 * ps.length) (hl : ps.length < 253) :
    complete op f v = [0x0e, 3 + ps.length, 1] ++ le 2 op ++ ps := by
  show octets (enc bodyEvent (14, ()) (enc bodyCommandComplete (1, op, ()) (enc f v []))) = _
  have h1 : ((bits 8 1).length + ((bits 16 op).length + (8 * ps.length))) / 8 = 3 + ps.length := by
    simp only [bits_length]; omega
  have h2 : (3 + ps.length) % 256 = 3 + ps.length := Nat.mod_eq_of_lt (by omega)
  simp only [bodyEvent, bodyCommandComplete, enc, lenOf, List.append_nil, List.length_append, hn]
  simp [h1, h2, octets_bits8, octets_16, he]

theorem status_octets (op st : Nat) : status op st = [0x0f, 4] ++ le 1 st ++ [1] ++ le 2 op := by
  show octets (enc bodyEvent (15, ()) (enc bodyCommandStatus (st, 1, op, ()) (enc bodyCreateConnectionStatus () []))) = _
  simp [bodyEvent, bodyCommandStatus, bodyCreateConnectionStatus, enc, bits_length, lenOf, octets_bits8, octets_16, octets,
    octets_16e, le]

theorem octets_8le (n : Nat) (r : List Bool) : octets (bits 8 n ++ r) = le 1 n ++ octets r := octets_bits 1 n r
theorem octets_8lee (n : Nat) : octets (bits 8 n) = le 1 n := octets_8e n

/-- A return with the status only. -/
theorem ret_status (op st : Nat) : complete op (.uint 8 .done) (st, ()) = [0x0e, 3 + (le 1 st).length, 1] ++ le 2 op ++ le 1 st :=
  complete_octets op _ _ _ (by simp [enc, octets_8lee]) (by simp [enc, bits_length, le_length]) (by simp [le_length])

theorem ret_48 (op st a : Nat) :
    complete op (.uint 8 <| .uint 48 <| .done) (st, a, ()) = [0x0e, 3 + (le 1 st ++ le 6 a).length, 1] ++ le 2 op ++ (le 1 st ++ le 6 a) :=
  complete_octets op _ _ _ (by simp [enc, octets_8le, octets_8lee, octets_16e, octets_48e])
    (by simp [enc, bits_length, le_length]) (by simp [le_length])

theorem ret_12_8 (op st a b : Nat) (h : a < 4096) :
    complete op (.uint 8 <| .uint 12 <| .reserved 4 <| .uint 8 <| .done) (st, a, b, ()) = [0x0e, 3 + (le 1 st ++ le 2 a ++ le 1 b).length, 1] ++ le 2 op ++ (le 1 st ++ le 2 a ++ le 1 b) :=
  complete_octets op _ _ _ (by simp [enc, octets_8le, octets_8lee, octets_16e, octets_48e, octets_12_4 _ _ h, octets_12_4e _ h])
    (by simp [enc, bits_length, le_length]) (by simp [le_length])

theorem ret_12_16 (op st a b : Nat) (h : a < 4096) :
    complete op (.uint 8 <| .uint 12 <| .reserved 4 <| .uint 16 <| .done) (st, a, b, ()) = [0x0e, 3 + (le 1 st ++ le 2 a ++ le 2 b).length, 1] ++ le 2 op ++ (le 1 st ++ le 2 a ++ le 2 b) :=
  complete_octets op _ _ _ (by simp [enc, octets_8le, octets_8lee, octets_16e, octets_48e, octets_12_4 _ _ h, octets_12_4e _ h])
    (by simp [enc, bits_length, le_length]) (by simp [le_length])

theorem ret_12 (op st a : Nat) (h : a < 4096) :
    complete op (.uint 8 <| .uint 12 <| .reserved 4 <| .done) (st, a, ()) = [0x0e, 3 + (le 1 st ++ le 2 a).length, 1] ++ le 2 op ++ (le 1 st ++ le 2 a) :=
  complete_octets op _ _ _ (by simp [enc, octets_8le, octets_8lee, octets_16e, octets_48e, octets_12_4 _ _ h, octets_12_4e _ h])
    (by simp [enc, bits_length, le_length]) (by simp [le_length])

theorem ret_16 (op st a : Nat) :
    complete op (.uint 8 <| .uint 16 <| .done) (st, a, ()) = [0x0e, 3 + (le 1 st ++ le 2 a).length, 1] ++ le 2 op ++ (le 1 st ++ le 2 a) :=
  complete_octets op _ _ _ (by simp [enc, octets_8le, octets_8lee, octets_16e, octets_48e])
    (by simp [enc, bits_length, le_length]) (by simp [le_length])

theorem ret_12_8_8 (op st a b c : Nat) (h : a < 4096) :
    complete op (.uint 8 <| .uint 12 <| .reserved 4 <| .uint 8 <| .uint 8 <| .done) (st, a, b, c, ()) = [0x0e, 3 + (le 1 st ++ le 2 a ++ le 1 b ++ le 1 c).length, 1] ++ le 2 op ++ (le 1 st ++ le 2 a ++ le 1 b ++ le 1 c) :=
  complete_octets op _ _ _ (by simp [enc, octets_8le, octets_8lee, octets_16e, octets_48e, octets_12_4 _ _ h, octets_12_4e _ h])
    (by simp [enc, bits_length, le_length]) (by simp [le_length])

end Verif.WireBr
