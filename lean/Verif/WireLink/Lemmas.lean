import Verif.WireLink.Spec
import Verif.WireBr.Lemmas

/-!
# Lemmas for C130
-/
namespace Verif.WireLink

open Verif.Pdl Verif.Pdl.Hci Verif.Wire
open Verif.WireBr (octets_64e)

theorem octets_prefs (a b : Bool) (r : List Bool) :
    octets (bits 1 (yes a) ++ (bits 1 (yes b) ++ (bits 6 0 ++ r))) = (yes a + 2 * yes b) :: octets r := by
  cases a <;> cases b <;> rfl

theorem octets_3_5 (n : Nat) (r : List Bool) (h : n < 8) : octets (bits 3 n ++ (bits 5 0 ++ r)) = n :: octets r := by
  rw [bits_join' 3 5 n 0 r h, octets_bits8]
  have : (n + 2 ^ 3 * 0) % 256 = n := by omega
  rw [this]

theorem octets_3_5e (n : Nat) (h : n < 8) : octets (bits 3 n ++ bits 5 0) = [n] := by
  have := octets_3_5 n [] h; rw [List.append_nil] at this; rw [this]; rfl

theorem octets_ofData (d : List UInt8) (r : List Bool) : octets (unpack (ofData d) ++ r) = ofData d ++ octets r :=
  octets_elems _ _ (ofData_lt d)

theorem fits_bytes (d : List UInt8) : (elems (ofData d)).all (fun x => fits (.uint 8 .done) x 0) = true :=
  fits_elems _ (ofData_lt d)

theorem bytes_length (d : List UInt8) : (elems (ofData d)).length = d.length := (elems_length _).trans (ofData_length d)

theorem one_of (b : Bool) : (yes b == 1) = b := by cases b <;> rfl

theorem code_of (q : Sub.Status) : code q = ofReason q := by cases q <;> rfl

theorem ofReason_lt (q : Sub.Status) (h : Known q) : ofReason q < 256 := by
  cases q with
  | other n => exact h.1
  | _ => decide

theorem reason_of (q : Sub.Status) (h : Known q) : reason (ofReason q) = q := by
  cases q with
  | other n =>
    obtain ⟨_, h0, h1, h2, h3, h4⟩ := h
    simp only [ofReason]
    unfold reason
    split <;> first | contradiction | rfl
  | _ => rfl

/-- The values fit their fields. -/
macro "ln_fits" "[" t:Lean.Parser.Tactic.simpLemma,* "]" : tactic => `(tactic|
  simp [fits, yes_lt, yes_lt8, fits_bytes, bytes_length, $t,*])

/-- The octets of the fields. -/
macro "ln_enc" "[" t:Lean.Parser.Tactic.simpLemma,* "]" : tactic => `(tactic|
  simp [enc, parameters, octets, octets_bits8, octets_16, octets_8e, octets_16e, octets_64e, octets_prefs, enc_elems, padTo_zero,
    octets_ofData, octets_data, $t,*])

/-- The command is not too long. -/
macro "ln_len" "[" t:Lean.Parser.Tactic.simpLemma,* "]" : tactic => `(tactic| simp [parameters, le_length, ofData_length, $t,*])

/-- What is handed to the controller. -/
macro "ln_call" "[" t:Lean.Parser.Tactic.simpLemma,* "]" : tactic => `(tactic| simp [one_of, data_of, $t,*])

theorem number_lt (c : Call) : number c < 65536 := by
  cases c with
  | link c => cases c <;> simp [number]
  | sub h c => cases c <;> simp [number]
  | subrate => simp [number]

theorem opcode_of (u : Unused) (c : Call) : opcode (octetsOf u c) = number c := by
  have h := number_lt c
  show number c % 256 + 256 * (number c / 256 % 256) = number c
  omega

/-! ## The handlers read the octets of the commands -/

theorem read_setDefaultPhy (u : Unused) (a b : Bool) (t r : Nat) (h1 : t < 8) (h2 : r < 8) :
    hSetDefaultPhy (octetsOf u (.link (.setDefaultPhy a b t r))) = some (.link (.setDefaultPhy a b t r)) := by
  have hf : fits bodyLeSetDefaultPhy (yes a, yes b, t, r, ()) 0 = true := by
    ln_fits [bodyLeSetDefaultPhy, h1, h2]
  have he : octets (enc bodyLeSetDefaultPhy (yes a, yes b, t, r, ()) []) = parameters u (.link (.setDefaultPhy a b t r)) := by
    ln_enc [bodyLeSetDefaultPhy, octets_3_5 _ _ h1, octets_3_5e _ h1, octets_3_5 _ _ h2, octets_3_5e _ h2]
  have hread := fields_of 0x2031 bodyLeSetDefaultPhy _ _ (by decide) (by decide) (by decide) hf he (by ln_len [])
  refine (congrArg (fun o => Option.bind o _) hread).trans ?_
  show ((fun ((a, b, t, r, _) : Nat × Nat × Nat × Nat × Unit) => some (.link (.setDefaultPhy (a == 1) (b == 1) t r)))
    (yes a, yes b, t, r, ()) : Option Call) = some (.link (.setDefaultPhy a b t r))
  ln_call []

theorem read_setPhy (u : Unused) (h : Nat) (a b : Bool) (t r : Nat) (h1 : h < 4096) (h2 : t < 8) (h3 : r < 8) (h4 : u.Fits) :
    hSetPhy (octetsOf u (.link (.setPhy h a b t r))) = some (.link (.setPhy h a b t r)) := by
  obtain ⟨u1, u2, u3⟩ := h4
  have hf : fits bodyLeSetPhy (h, yes a, yes b, t, r, u.options, ()) 0 = true := by
    ln_fits [bodyLeSetPhy, h1, h2, h3, u1, u2, u3]
  have he : octets (enc bodyLeSetPhy (h, yes a, yes b, t, r, u.options, ()) []) = parameters u (.link (.setPhy h a b t r)) := by
    ln_enc [bodyLeSetPhy, octets_12_4 _ _ h1, octets_12_4e _ h1, octets_3_5 _ _ h2, octets_3_5e _ h2, octets_3_5 _ _ h3, octets_3_5e _ h3]
  have hread := fields_of 0x2032 bodyLeSetPhy _ _ (by decide) (by decide) (by decide) hf he (by ln_len [])
  refine (congrArg (fun o => Option.bind o _) hread).trans ?_
  show ((fun ((h, a, b, t, r, _, _) : Nat × Nat × Nat × Nat × Nat × Nat × Unit) => some (.link (.setPhy h (a == 1) (b == 1) t r)))
    (h, yes a, yes b, t, r, u.options, ()) : Option Call) = some (.link (.setPhy h a b t r))
  ln_call []

theorem read_enable (u : Unused) (h : Nat) (x : List UInt8) (e : Nat) (k : Link.Key) (h1 : h < 4096) (h2 : e < 65536) (h3 : x.length = 8) (h4 : k.length = 16) :
    hEnable (octetsOf u (.link (.enable h x e k))) = some (.link (.enable h x e k)) := by
  have hh : h < 65536 := by omega
  have hf : fits bodyLeStartEncryption (h, elems (ofData x), e, elems (ofData k), ()) 0 = true := by
    ln_fits [bodyLeStartEncryption, hh, h2, h3, h4]
    exact ⟨⟨fits_bytes x, (bytes_length x).trans h3⟩, fits_bytes k, (bytes_length k).trans h4⟩
  have he : octets (enc bodyLeStartEncryption (h, elems (ofData x), e, elems (ofData k), ()) []) = parameters u (.link (.enable h x e k)) := by
    ln_enc [bodyLeStartEncryption]
  have hread := fields_of 0x2019 bodyLeStartEncryption _ _ (by decide) (by decide) (by decide) hf he (by ln_len [h3, h4])
  refine (congrArg (fun o => Option.bind o _) hread).trans ?_
  show ((fun ((h, x, e, k, _) : Nat × List (Nat × Unit) × Nat × List (Nat × Unit) × Unit) => some (.link (.enable h (data x) e (data k))))
    (h, elems (ofData x), e, elems (ofData k), ()) : Option Call) = some (.link (.enable h x e k))
  ln_call []

theorem read_reply (u : Unused) (h : Nat) (k : Link.Key) (h1 : h < 4096) (h2 : k.length = 16) :
    hReply (octetsOf u (.link (.reply h k))) = some (.link (.reply h k)) := by
  have hh : h < 65536 := by omega
  have hf : fits bodyLeLongTermKeyRequestReply (h, elems (ofData k), ()) 0 = true := by
    ln_fits [bodyLeLongTermKeyRequestReply, hh, h2]
    exact ⟨fits_bytes k, (bytes_length k).trans h2⟩
  have he : octets (enc bodyLeLongTermKeyRequestReply (h, elems (ofData k), ()) []) = parameters u (.link (.reply h k)) := by
    ln_enc [bodyLeLongTermKeyRequestReply]
  have hread := fields_of 0x201a bodyLeLongTermKeyRequestReply _ _ (by decide) (by decide) (by decide) hf he (by ln_len [h2])
  refine (congrArg (fun o => Option.bind o _) hread).trans ?_
  show ((fun ((h, k, _) : Nat × List (Nat × Unit) × Unit) => some (.link (.reply h (data k))))
    (h, elems (ofData k), ()) : Option Call) = some (.link (.reply h k))
  ln_call []

theorem read_negative (u : Unused) (h : Nat) (h1 : h < 4096) :
    hNegative (octetsOf u (.link (.negative h))) = some (.link (.negative h)) := by
  have hf : fits bodyLeLongTermKeyRequestNegativeReply (h, ()) 0 = true := by
    ln_fits [bodyLeLongTermKeyRequestNegativeReply, h1]
  have he : octets (enc bodyLeLongTermKeyRequestNegativeReply (h, ()) []) = parameters u (.link (.negative h)) := by
    ln_enc [bodyLeLongTermKeyRequestNegativeReply, octets_12_4 _ _ h1, octets_12_4e _ h1]
  have hread := fields_of 0x201b bodyLeLongTermKeyRequestNegativeReply _ _ (by decide) (by decide) (by decide) hf he (by ln_len [])
  refine (congrArg (fun o => Option.bind o _) hread).trans ?_
  show ((fun ((h, _) : Nat × Unit) => some (.link (.negative h)))
    (h, ()) : Option Call) = some (.link (.negative h))
  ln_call []

theorem read_readFeatures (u : Unused) (h : Nat) (h1 : h < 4096) :
    hReadFeatures (octetsOf u (.link (.readFeatures h))) = some (.link (.readFeatures h)) := by
  have hf : fits bodyLeReadRemoteFeaturesPage0 (h, ()) 0 = true := by
    ln_fits [bodyLeReadRemoteFeaturesPage0, h1]
  have he : octets (enc bodyLeReadRemoteFeaturesPage0 (h, ()) []) = parameters u (.link (.readFeatures h)) := by
    ln_enc [bodyLeReadRemoteFeaturesPage0, octets_12_4 _ _ h1, octets_12_4e _ h1]
  have hread := fields_of 0x2016 bodyLeReadRemoteFeaturesPage0 _ _ (by decide) (by decide) (by decide) hf he (by ln_len [])
  refine (congrArg (fun o => Option.bind o _) hread).trans ?_
  show ((fun ((h, _) : Nat × Unit) => some (.link (.readFeatures h)))
    (h, ()) : Option Call) = some (.link (.readFeatures h))
  ln_call []

theorem read_readVersion (u : Unused) (h : Nat) (h1 : 0x200 ≤ h) (h2 : h < 0x300) :
    hReadVersion (octetsOf u (.link (.readVersion h))) = some (.link (.readVersion h)) := by
  have hh : h < 4096 := by omega
  have hf : fits bodyReadRemoteVersionInformation (h, ()) 0 = true := by
    ln_fits [bodyReadRemoteVersionInformation, hh]
  have he : octets (enc bodyReadRemoteVersionInformation (h, ()) []) = parameters u (.link (.readVersion h)) := by
    ln_enc [bodyReadRemoteVersionInformation, octets_12_4 _ _ hh, octets_12_4e _ hh]
  have hread := fields_of 0x041d bodyReadRemoteVersionInformation _ _ (by decide) (by decide) (by decide) hf he (by ln_len [])
  refine (congrArg (fun o => Option.bind o _) hread).trans ?_
  show ((fun ((h, _) : Nat × Unit) => if 0x200 ≤ h ∧ h ≤ 0x2ff then some (.link (.readVersion h)) else none)
    (h, ()) : Option Call) = some (.link (.readVersion h))
  ln_call [h1, show h ≤ 767 by omega, show 512 ≤ h by omega]

theorem read_setMask (u : Unused) (m : Nat) (h1 : m < 18446744073709551616) :
    hSetMask (octetsOf u (.link (.setMask m))) = some (.link (.setMask m)) := by
  have hf : fits bodySetEventMask (m, ()) 0 = true := by
    ln_fits [bodySetEventMask, h1]
  have he : octets (enc bodySetEventMask (m, ()) []) = parameters u (.link (.setMask m)) := by
    ln_enc [bodySetEventMask]
  have hread := fields_of 0x0c01 bodySetEventMask _ _ (by decide) (by decide) (by decide) hf he (by ln_len [])
  refine (congrArg (fun o => Option.bind o _) hread).trans ?_
  show ((fun ((m, _) : Nat × Unit) => some (.link (.setMask m)))
    (m, ()) : Option Call) = some (.link (.setMask m))
  ln_call []

theorem read_setMask2 (u : Unused) (m : Nat) (h1 : m < 18446744073709551616) :
    hSetMask2 (octetsOf u (.link (.setMask2 m))) = some (.link (.setMask2 m)) := by
  have hf : fits bodySetEventMaskPage2 (m, ()) 0 = true := by
    ln_fits [bodySetEventMaskPage2, h1]
  have he : octets (enc bodySetEventMaskPage2 (m, ()) []) = parameters u (.link (.setMask2 m)) := by
    ln_enc [bodySetEventMaskPage2]
  have hread := fields_of 0x0c63 bodySetEventMaskPage2 _ _ (by decide) (by decide) (by decide) hf he (by ln_len [])
  refine (congrArg (fun o => Option.bind o _) hread).trans ?_
  show ((fun ((m, _) : Nat × Unit) => some (.link (.setMask2 m)))
    (m, ()) : Option Call) = some (.link (.setMask2 m))
  ln_call []

theorem read_setLeMask (u : Unused) (m : Nat) (h1 : m < 18446744073709551616) :
    hSetLeMask (octetsOf u (.link (.setLeMask m))) = some (.link (.setLeMask m)) := by
  have hf : fits bodyLeSetEventMask (m, ()) 0 = true := by
    ln_fits [bodyLeSetEventMask, h1]
  have he : octets (enc bodyLeSetEventMask (m, ()) []) = parameters u (.link (.setLeMask m)) := by
    ln_enc [bodyLeSetEventMask]
  have hread := fields_of 0x2001 bodyLeSetEventMask _ _ (by decide) (by decide) (by decide) hf he (by ln_len [])
  refine (congrArg (fun o => Option.bind o _) hread).trans ?_
  show ((fun ((m, _) : Nat × Unit) => some (.link (.setLeMask m)))
    (m, ()) : Option Call) = some (.link (.setLeMask m))
  ln_call []

theorem read_subrateRequest (u : Unused) (h x y l c t : Nat) (h1 : h < 4096) (h2 : x < 65536) (h3 : y < 65536) (h4 : l < 65536) (h5 : c < 65536) (h6 : t < 65536) :
    hSubrateRequest (octetsOf u (.sub h (.subrateRequest x y l c t))) = some (.sub h (.subrateRequest x y l c t)) := by
  have hf : fits bodyLeSubrateRequest (h, x, y, l, c, t, ()) 0 = true := by
    ln_fits [bodyLeSubrateRequest, h1, h2, h3, h4, h5, h6]
  have he : octets (enc bodyLeSubrateRequest (h, x, y, l, c, t, ()) []) = parameters u (.sub h (.subrateRequest x y l c t)) := by
    ln_enc [bodyLeSubrateRequest, octets_12_4 _ _ h1, octets_12_4e _ h1]
  have hread := fields_of 0x207e bodyLeSubrateRequest _ _ (by decide) (by decide) (by decide) hf he (by ln_len [])
  refine (congrArg (fun o => Option.bind o _) hread).trans ?_
  show ((fun ((h, x, y, l, c, t, _) : Nat × Nat × Nat × Nat × Nat × Nat × Unit) => some (.sub h (.subrateRequest x y l c t)))
    (h, x, y, l, c, t, ()) : Option Call) = some (.sub h (.subrateRequest x y l c t))
  ln_call []

theorem read_connectionUpdate (u : Unused) (h x y l t : Nat) (h1 : h < 4096) (h2 : x < 65536) (h3 : y < 65536) (h4 : l < 65536) (h5 : t < 65536) (h6 : u.Fits) :
    hConnectionUpdate (octetsOf u (.sub h (.connectionUpdate x y l t))) = some (.sub h (.connectionUpdate x y l t)) := by
  obtain ⟨u1, u2, u3⟩ := h6
  have hf : fits bodyLeConnectionUpdate (h, x, y, l, t, u.minCe, u.maxCe, ()) 0 = true := by
    ln_fits [bodyLeConnectionUpdate, h1, h2, h3, h4, h5, u1, u2, u3]
  have he : octets (enc bodyLeConnectionUpdate (h, x, y, l, t, u.minCe, u.maxCe, ()) []) = parameters u (.sub h (.connectionUpdate x y l t)) := by
    ln_enc [bodyLeConnectionUpdate, octets_12_4 _ _ h1, octets_12_4e _ h1]
  have hread := fields_of 0x2013 bodyLeConnectionUpdate _ _ (by decide) (by decide) (by decide) hf he (by ln_len [])
  refine (congrArg (fun o => Option.bind o _) hread).trans ?_
  show ((fun ((h, x, y, l, t, _, _, _) : Nat × Nat × Nat × Nat × Nat × Nat × Nat × Unit) => some (.sub h (.connectionUpdate x y l t)))
    (h, x, y, l, t, u.minCe, u.maxCe, ()) : Option Call) = some (.sub h (.connectionUpdate x y l t))
  ln_call []

theorem read_paramReply (u : Unused) (h x y l t m n : Nat) (h1 : h < 4096) (h2 : x < 65536) (h3 : y < 65536) (h4 : l < 65536) (h5 : t < 65536) (h6 : m < 65536) (h7 : n < 65536) :
    hParamReply (octetsOf u (.sub h (.paramReply x y l t m n))) = some (.sub h (.paramReply x y l t m n)) := by
  have hf : fits bodyLeRemoteConnectionParameterRequestReply (h, x, y, l, t, m, n, ()) 0 = true := by
    ln_fits [bodyLeRemoteConnectionParameterRequestReply, h1, h2, h3, h4, h5, h6, h7]
  have he : octets (enc bodyLeRemoteConnectionParameterRequestReply (h, x, y, l, t, m, n, ()) []) = parameters u (.sub h (.paramReply x y l t m n)) := by
    ln_enc [bodyLeRemoteConnectionParameterRequestReply, octets_12_4 _ _ h1, octets_12_4e _ h1]
  have hread := fields_of 0x2020 bodyLeRemoteConnectionParameterRequestReply _ _ (by decide) (by decide) (by decide) hf he (by ln_len [])
  refine (congrArg (fun o => Option.bind o _) hread).trans ?_
  show ((fun ((h, x, y, l, t, m, n, _) : Nat × Nat × Nat × Nat × Nat × Nat × Nat × Unit) => some (.sub h (.paramReply x y l t m n)))
    (h, x, y, l, t, m, n, ()) : Option Call) = some (.sub h (.paramReply x y l t m n))
  ln_call []

theorem read_paramRefuse (u : Unused) (h : Nat) (q : Sub.Status) (h1 : h < 4096) (h2 : Known q) :
    hParamRefuse (octetsOf u (.sub h (.paramRefuse q))) = some (.sub h (.paramRefuse q)) := by
  have hf : fits bodyLeRemoteConnectionParameterRequestNegativeReply (h, ofReason q, ()) 0 = true := by
    ln_fits [bodyLeRemoteConnectionParameterRequestNegativeReply, h1, ofReason_lt q h2]
  have he : octets (enc bodyLeRemoteConnectionParameterRequestNegativeReply (h, ofReason q, ()) []) = parameters u (.sub h (.paramRefuse q)) := by
    ln_enc [bodyLeRemoteConnectionParameterRequestNegativeReply, octets_12_4 _ _ h1, octets_12_4e _ h1, Nat.mod_eq_of_lt (ofReason_lt q h2)]
  have hread := fields_of 0x2021 bodyLeRemoteConnectionParameterRequestNegativeReply _ _ (by decide) (by decide) (by decide) hf he (by ln_len [])
  refine (congrArg (fun o => Option.bind o _) hread).trans ?_
  show ((fun ((h, q, _) : Nat × Nat × Unit) => some (.sub h (.paramRefuse (reason q))))
    (h, ofReason q, ()) : Option Call) = some (.sub h (.paramRefuse q))
  ln_call [reason_of q h2]

theorem read_subrate (u : Unused) (x y l c t : Nat) (h1 : x < 65536) (h2 : y < 65536) (h3 : l < 65536) (h4 : c < 65536) (h5 : t < 65536) :
    hSubrate (octetsOf u (.subrate x y l c t)) = some (.subrate x y l c t) := by
  have hf : fits bodyLeSetDefaultSubrate (x, y, l, c, t, ()) 0 = true := by
    ln_fits [bodyLeSetDefaultSubrate, h1, h2, h3, h4, h5]
  have he : octets (enc bodyLeSetDefaultSubrate (x, y, l, c, t, ()) []) = parameters u (.subrate x y l c t) := by
    ln_enc [bodyLeSetDefaultSubrate]
  have hread := fields_of 0x207d bodyLeSetDefaultSubrate _ _ (by decide) (by decide) (by decide) hf he (by ln_len [])
  refine (congrArg (fun o => Option.bind o _) hread).trans ?_
  show ((fun ((x, y, l, c, t, _) : Nat × Nat × Nat × Nat × Nat × Unit) => some (.subrate x y l c t))
    (x, y, l, c, t, ()) : Option Call) = some (.subrate x y l c t)
  ln_call []

end Verif.WireLink
