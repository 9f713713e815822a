import Verif.Wire.Model
import Verif.Wire.Spec
import Verif.Pdl.Chain

/-!
# Lemmas for C126
-/
namespace Verif.Wire

open Verif.Le Verif.Pdl Verif.Pdl.Hci

theorem bits_add (a b n : Nat) : bits (a + b) n = bits a n ++ bits b (n / 2 ^ a) := by
  induction a generalizing n with
  | zero => simp [bits]
  | succ a ih =>
    have : a + 1 + b = (a + b) + 1 := by omega
    rw [this]
    simp only [bits, List.cons_append, ih, Nat.pow_succ, Nat.div_div_eq_div_mul, Nat.mul_comm 2]

theorem bits_mod (w n : Nat) : bits w (n % 2 ^ w) = bits w n := by
  induction w generalizing n with
  | zero => rfl
  | succ w ih =>
    have h1 : n % 2 ^ (w + 1) % 2 = n % 2 := by
      rw [Nat.pow_succ, Nat.mul_comm]; exact Nat.mod_mul_right_mod n 2 (2 ^ w)
    have h2 : n % 2 ^ (w + 1) / 2 = n / 2 % 2 ^ w := by
      rw [Nat.pow_succ, Nat.mul_comm]; exact Nat.mod_mul_right_div_self n 2 (2 ^ w)
    simp only [bits, h1, h2, ih]

/-- Fields that follow each other are one number. -/
theorem bits_join (a b n m : Nat) (h : n < 2 ^ a) : bits a n ++ bits b m = bits (a + b) (n + 2 ^ a * m) := by
  have hp : 0 < 2 ^ a := Nat.two_pow_pos a
  rw [bits_add]
  have h1 : bits a (n + 2 ^ a * m) = bits a n := by
    rw [← bits_mod a (n + 2 ^ a * m), Nat.add_mul_mod_self_left, bits_mod]
  have h2 : (n + 2 ^ a * m) / 2 ^ a = m := by
    rw [Nat.add_mul_div_left _ _ hp, Nat.div_eq_of_lt h, Nat.zero_add]
  rw [h1, h2]

theorem bits_join' (a b n m : Nat) (r : List Bool) (h : n < 2 ^ a) :
    bits a n ++ (bits b m ++ r) = bits (a + b) (n + 2 ^ a * m) ++ r := by
  rw [← List.append_assoc, bits_join a b n m h]

theorem octets_bits8 (n : Nat) (r : List Bool) : octets (bits 8 n ++ r) = n % 256 :: octets r := by
  have : num (bits 8 n) = n % 256 := by
    rw [← bits_mod]; exact num_bits 8 _ (Nat.mod_lt _ (by decide))
  simp only [bits, List.cons_append, List.nil_append, octets] at this ⊢
  rw [this]

theorem octets_bits (k n : Nat) (r : List Bool) : octets (bits (8 * k) n ++ r) = le k n ++ octets r := by
  induction k generalizing n with
  | zero => rfl
  | succ k ih =>
    have : 8 * (k + 1) = 8 + 8 * k := by omega
    rw [this, bits_add, List.append_assoc, octets_bits8, ih]
    rfl

theorem octets_16 (n : Nat) (r : List Bool) : octets (bits 16 n ++ r) = le 2 n ++ octets r := octets_bits 2 n r
theorem octets_24 (n : Nat) (r : List Bool) : octets (bits 24 n ++ r) = le 3 n ++ octets r := octets_bits 3 n r
theorem octets_48 (n : Nat) (r : List Bool) : octets (bits 48 n ++ r) = le 6 n ++ octets r := octets_bits 6 n r

theorem octets_8e (n : Nat) : octets (bits 8 n) = [n % 256] := by
  have := octets_bits8 n []; rw [List.append_nil] at this; exact this
theorem octets_16e (n : Nat) : octets (bits 16 n) = le 2 n := by
  have := octets_16 n []; rw [List.append_nil] at this; rw [this]; exact List.append_nil _
theorem octets_48e (n : Nat) : octets (bits 48 n) = le 6 n := by
  have := octets_48 n []; rw [List.append_nil] at this; rw [this]; exact List.append_nil _

theorem octets_append (a b : List Bool) (n : Nat) (h : a.length = 8 * n) : octets (a ++ b) = octets a ++ octets b := by
  induction n generalizing a with
  | zero => have := List.eq_nil_of_length_eq_zero h; subst this; rfl
  | succ n ih =>
    match a, h with
    | a1 :: a2 :: a3 :: a4 :: a5 :: a6 :: a7 :: a8 :: t, h =>
      simp only [List.length_cons] at h
      simp only [List.cons_append, octets, ih t (by omega)]

theorem le_length (k n : Nat) : (le k n).length = k := by
  induction k generalizing n with
  | zero => rfl
  | succ k ih => simp [le, ih]

/-- The fields of a command are read from its octets. -/
theorem fields_of (op : Nat) (f : Fmt) (v : f.T) (ps : List Nat) (hop : op < 65536) (hw : wf [] 0 f = true) (hr : room f = false)
    (hf : fits f v 0 = true) (he : octets (enc f v []) = ps) (hl : ps.length < 256) :
    fields op f (le 2 op ++ [ps.length] ++ ps) = some v := by
  have hwa : wfAll [⟨bodyCommand, [(0, op)]⟩, ⟨f, []⟩] = true := by
    simp only [wfAll, hw, Bool.and_true]; decide
  have hal := packetWidth_aligned [⟨f, []⟩] (v, ()) 0 hw
  have hal : width f v 0 % 8 = 0 := hal
  have hlen : (enc f v []).length = width f v 0 := enc_length f v []
  have hoct := octets_length (enc f v []) (width f v 0 / 8) (by omega)
  rw [he] at hoct
  have hs : encAll [⟨bodyCommand, [(0, op)]⟩, ⟨f, []⟩] ((op, ()), (v, ())) [] =
      bits 16 op ++ (bits 8 ps.length ++ enc f v []) := by
    show bits 16 op ++ (bits 8 (lenOf (.payload (.size 0) .done) 0 () (enc f v [])) ++ (enc f v [] ++ [])) = _
    have : lenOf (.payload (.size 0) .done) 0 () (enc f v []) = ps.length := by
      simp only [lenOf, if_true, hlen, hoct]
    rw [this, List.append_nil]
  have hfit : fitsAll [⟨bodyCommand, [(0, op)]⟩, ⟨f, []⟩] ((op, ()), (v, ())) 0 = true := by
    have h1 : fits bodyCommand (op, ()) (width f v 0) = true := by
      simp only [bodyCommand, fits, announced, if_true, Bool.and_eq_true, decide_eq_true_eq, and_true]
      omega
    have h2 : field bodyCommand 0 (op, ()) = some op := rfl
    simp only [fitsAll, packetWidth, Nat.mul_zero, h1, h2, hf, List.all_cons, List.all_nil, beq_self_eq_true, Bool.and_self]
  have hd := decAll_encAll [⟨bodyCommand, [(0, op)]⟩, ⟨f, []⟩] ((op, ()), (v, ())) [] 0 hwa hfit rfl (.inr rfl)
  have hu : unpack (le 2 op ++ [ps.length] ++ ps) = encAll [⟨bodyCommand, [(0, op)]⟩, ⟨f, []⟩] ((op, ()), (v, ())) [] := by
    have h1 : octets (encAll [⟨bodyCommand, [(0, op)]⟩, ⟨f, []⟩] ((op, ()), (v, ())) []) = le 2 op ++ [ps.length] ++ ps := by
      rw [hs, octets_16, octets_bits8, he, Nat.mod_eq_of_lt hl]; simp
    rw [← h1]
    refine unpack_octets _ (3 + width f v 0 / 8) ?_
    rw [hs]; simp only [List.length_append, bits_length, hlen]; omega
  simp only [fields, parse, hu, hd]

/-! ### Numbers -/

theorem ofPeer_lt (t : PeerAddressType) : ofPeer t < 256 := by cases t <;> decide
theorem ofType_lt (t : AddressType) : ofType t < 256 := by cases t <;> decide
theorem ofOwn_lt (t : OwnAddressType) : ofOwn t < 256 := by cases t <;> decide
theorem ofFal_lt (t : FalAddressType) : ofFal t < 256 := by cases t <;> decide
theorem ofAdv_lt (t : AdvertisingType) : ofAdv t < 256 := by cases t <;> decide
theorem ofAdvPolicy_lt (t : AdvertisingFilterPolicy) : ofAdvPolicy t < 4 := by cases t <;> decide
theorem ofScanPolicy_lt (t : ScanFilterPolicy) : ofScanPolicy t < 256 := by cases t <;> decide
theorem ofInit_lt (t : InitiatorFilterPolicy) : ofInit t < 256 := by cases t <;> decide
theorem ofPrivacy_lt (t : PrivacyMode) : ofPrivacy t < 256 := by cases t <;> decide
theorem ofPrimary_lt (t : PrimaryPhy) : ofPrimary t < 256 := by cases t <;> decide
theorem ofSecondary_lt (t : SecondaryPhy) : ofSecondary t < 256 := by cases t <;> decide
theorem ofDuplicates_lt (t : FilterDuplicates) : ofDuplicates t < 256 := by cases t <;> decide
theorem ofScan_lt (t : ScanType) : ofScan t < 256 := by cases t <;> decide
theorem yes_lt (b : Bool) : yes b < 2 := by cases b <;> decide
theorem yes_lt8 (b : Bool) : yes b < 256 := by cases b <;> decide
theorem address_lt (a : Address) : a.toNat < 281474976710656 := a.isLt
theorem octet_lt (u : UInt8) : u.toNat < 256 := u.toNat_lt
theorem ofOperation_lt (x : Unused) (op : Operation) (h : OpFits x op) : ofOperation x op < 8 := by
  cases op <;> simp_all [ofOperation, OpFits]

theorem mod8 {n : Nat} (h : n < 256) : n % 256 = n := Nat.mod_eq_of_lt h

theorem peerType_of (t : PeerAddressType) : peerType (ofPeer t) = some t := by cases t <;> rfl
theorem addressType_of (t : AddressType) : addressType (ofType t) = some t := by cases t <;> rfl
theorem ownType_of (t : OwnAddressType) : ownType (ofOwn t) = some t := by cases t <;> rfl
theorem falType_of (t : FalAddressType) : falType (ofFal t) = some t := by cases t <;> rfl
theorem advType_of (t : AdvertisingType) : advType (ofAdv t) = some t := by cases t <;> rfl
theorem advPolicy_of (t : AdvertisingFilterPolicy) : advPolicy (ofAdvPolicy t) = some t := by cases t <;> rfl
theorem scanPolicy_of (t : ScanFilterPolicy) : scanPolicy (ofScanPolicy t) = some t := by cases t <;> rfl
theorem initPolicy_of (t : InitiatorFilterPolicy) : initPolicy (ofInit t) = some t := by cases t <;> rfl
theorem privacy_of (t : PrivacyMode) : privacy (ofPrivacy t) = some t := by cases t <;> rfl
theorem primary_of (t : PrimaryPhy) : primary (ofPrimary t) = some t := by cases t <;> rfl
theorem secondary_of (t : SecondaryPhy) : secondary (ofSecondary t) = some t := by cases t <;> rfl
theorem duplicates_of (t : FilterDuplicates) : duplicates (ofDuplicates t) = some t := by cases t <;> rfl
theorem scanType_of (t : ScanType) : scanType (ofScan t) = some t := by cases t <;> rfl
theorem enabled_of (b : Bool) : enabled (yes b) = b := by cases b <;> rfl
theorem operation_of (x : Unused) (op : Operation) (h : OpFits x op) : operation (ofOperation x op) = op := by
  cases op with
  | other =>
    obtain ⟨h1, h2⟩ := h rfl
    have : x.noOperation = 5 ∨ x.noOperation = 6 ∨ x.noOperation = 7 := by omega
    rcases this with h | h | h <;> simp only [ofOperation, h, operation]
  | _ => rfl
theorem address_of (a : Address) : BitVec.ofNat 48 a.toNat = a := BitVec.ofNat_toNat ..  |>.trans (BitVec.setWidth_eq a)

/-! ### Fields of less than an octet -/

theorem octets_2_6 (n : Nat) (r : List Bool) (h : n < 4) : octets (bits 2 n ++ (bits 6 0 ++ r)) = n :: octets r := by
  rw [bits_join' 2 6 n 0 r h]
  simp only [Nat.reduceAdd, Nat.mul_zero, Nat.add_zero, octets_bits8, mod8 (show n < 256 by omega)]

theorem octets_3_5 (n : Nat) (r : List Bool) (h : n < 8) : octets (bits 3 n ++ (bits 5 0 ++ r)) = n :: octets r := by
  rw [bits_join' 3 5 n 0 r h]
  simp only [Nat.reduceAdd, Nat.mul_zero, Nat.add_zero, octets_bits8, mod8 (show n < 256 by omega)]

theorem octets_1_7 (n : Nat) (r : List Bool) (h : n < 2) : octets (bits 1 n ++ (bits 7 0 ++ r)) = n :: octets r := by
  rw [bits_join' 1 7 n 0 r h]
  simp only [Nat.reduceAdd, Nat.mul_zero, Nat.add_zero, octets_bits8, mod8 (show n < 256 by omega)]

theorem octets_12_4 (n : Nat) (r : List Bool) (h : n < 4096) : octets (bits 12 n ++ (bits 4 0 ++ r)) = le 2 n ++ octets r := by
  rw [bits_join' 12 4 n 0 r h]
  simp only [Nat.reduceAdd, Nat.mul_zero, Nat.add_zero, octets_16]

theorem octets_2_6e (n : Nat) (h : n < 4) : octets (bits 2 n ++ bits 6 0) = [n] := by
  have := octets_2_6 n [] h; rw [List.append_nil] at this; exact this

theorem octets_12_4e (n : Nat) (h : n < 4096) : octets (bits 12 n ++ bits 4 0) = le 2 n := by
  have := octets_12_4 n [] h; rw [List.append_nil] at this; rw [this]; exact List.append_nil _

theorem octets_6_1_9e (a : Bool) : octets (bits 6 0 ++ (bits 1 (yes a) ++ bits 9 0)) = le 2 (64 * yes a) := by
  cases a <;> rfl

theorem octets_1_1_6 (a b : Bool) (r : List Bool) :
    octets (bits 1 (yes a) ++ (bits 1 (yes b) ++ (bits 6 0 ++ r))) = (yes a + 2 * yes b) :: octets r := by
  cases a <;> cases b <;> rfl

theorem octets_1_1_1_5 (a b c : Bool) (r : List Bool) :
    octets (bits 1 (yes a) ++ (bits 1 (yes b) ++ (bits 1 (yes c) ++ (bits 5 0 ++ r)))) =
      (yes a + 2 * yes b + 4 * yes c) :: octets r := by
  cases a <;> cases b <;> cases c <;> rfl

theorem octets_6_1_9 (a : Bool) (r : List Bool) :
    octets (bits 6 0 ++ (bits 1 (yes a) ++ (bits 9 0 ++ r))) = le 2 (64 * yes a) ++ octets r := by
  cases a <;> rfl

/-- The values of the event properties. -/
def propVals (q : EventProperties) : Nat × Nat × Nat × Nat × Nat × Nat × Nat × Nat × Nat × Nat × Unit :=
  (yes q.connectable, yes q.scannable, yes q.directed, yes q.highDutyCycle, yes q.legacy, yes q.anonymous, yes q.includeTxPower,
    0, 0, 0, ())

theorem octets_props (q : EventProperties) (r : List Bool) :
    octets (enc structAdvertisingEventProperties (propVals q) [] ++ r) = le 2 (ofProperties q) ++ octets r := by
  obtain ⟨a, b, c, d, e, f, g⟩ := q
  cases a <;> cases b <;> cases c <;> cases d <;> cases e <;> cases f <;> cases g <;> rfl

theorem fits_props (q : EventProperties) : fits structAdvertisingEventProperties (propVals q) 0 = true := by
  obtain ⟨a, b, c, d, e, f, g⟩ := q
  cases a <;> cases b <;> cases c <;> cases d <;> cases e <;> cases f <;> cases g <;> rfl

theorem properties_of (q : EventProperties) : properties (propVals q) = some q := by
  obtain ⟨a, b, c, d, e, f, g⟩ := q
  simp only [propVals, properties, enabled_of]

/-! ### Data and keys -/

/-- The elements of an array of octets. -/
def elems (l : List Nat) : List (Nat × Unit) := l.map (fun n => (n, ()))

theorem enc_elems (l : List Nat) : (elems l).flatMap (fun x => enc (.uint 8 .done) x []) = unpack l := by
  induction l with
  | nil => rfl
  | cons n l ih =>
    have h : (elems (n :: l)).flatMap (fun x => enc (.uint 8 .done) x []) =
      (bits 8 n ++ []) ++ (elems l).flatMap (fun x => enc (.uint 8 .done) x []) := rfl
    rw [h, ih, List.append_nil]; rfl

theorem octets_elems (l : List Nat) (r : List Bool) (h : ∀ n ∈ l, n < 256) : octets (unpack l ++ r) = l ++ octets r := by
  rw [octets_append _ _ l.length (unpack_length l), octets_unpack l h]

theorem fits_elems (l : List Nat) (h : ∀ n ∈ l, n < 256) : (elems l).all (fun x => fits (.uint 8 .done) x 0) = true := by
  simp only [elems, List.all_map, List.all_eq_true, Function.comp, fits, Bool.and_true, decide_eq_true_eq]
  exact h

theorem width_elems (l : List Nat) : ((elems l).map (fun x => width (.uint 8 .done) x 0)).sum = 8 * l.length := by
  induction l with
  | nil => rfl
  | cons n l ih =>
    have h : ((elems (n :: l)).map (fun x => width (.uint 8 .done) x 0)).sum =
      8 + ((elems l).map (fun x => width (.uint 8 .done) x 0)).sum := rfl
    rw [h, ih, List.length_cons]; omega

theorem ofData_lt (d : List UInt8) : ∀ n ∈ ofData d, n < 256 := by
  simp only [ofData, List.mem_map]; rintro n ⟨u, _, rfl⟩; exact u.toNat_lt

theorem ofData_length (d : List UInt8) : (ofData d).length = d.length := List.length_map _

theorem data_of (d : List UInt8) : data (elems (ofData d)) = d := by
  simp only [data, elems, ofData, List.map_map]
  have : ((fun x : Nat × Unit => UInt8.ofNat x.1) ∘ (fun n => (n, ())) ∘ UInt8.toNat) = id := by
    funext u; simp
  rw [this, List.map_id]

theorem octets_zeros (m : Nat) (r : List Bool) : octets (List.replicate (8 * m) false ++ r) = List.replicate m 0 ++ octets r := by
  induction m with
  | zero => rfl
  | succ m ih =>
    have : 8 * (m + 1) = 8 * m + 1 + 1 + 1 + 1 + 1 + 1 + 1 + 1 := by omega
    rw [this]
    simp only [List.replicate_succ, List.cons_append, octets, ih]
    rfl

theorem le_lt (k n : Nat) : ∀ x ∈ le k n, x < 256 := by
  induction k generalizing n with
  | zero => intro x hx; cases hx
  | succ k ih =>
    intro x hx
    rcases List.mem_cons.1 hx with rfl | hx
    · exact Nat.mod_lt _ (by decide)
    · exact ih _ x hx

theorem padTo_zero (l : List Bool) : padTo 0 l = l := by simp [padTo]

theorem octets_data (d : List UInt8) : octets (unpack (ofData d)) = ofData d := octets_unpack _ (ofData_lt d)

theorem octets_key (k : Irk) (r : List Bool) : octets (unpack (ofKey k) ++ r) = ofKey k ++ octets r :=
  octets_elems _ _ (le_lt _ _)

theorem octets_keye (k : Irk) : octets (unpack (ofKey k)) = ofKey k := octets_unpack _ (le_lt _ _)

theorem octets_legacy (d : List UInt8) (h : d.length ≤ 31) :
    octets (padTo 31 (unpack (ofData d))) = ofData d ++ List.replicate (31 - d.length) 0 := by
  have h1 : 8 * 31 - (unpack (ofData d)).length = 8 * (31 - d.length) := by
    rw [unpack_length, ofData_length]; omega
  have h2 := octets_zeros (31 - d.length) []
  rw [List.append_nil] at h2
  rw [padTo, h1, octets_elems _ _ (ofData_lt d), h2]
  simp [octets]

/-- The values of enabled sets, of the parameters of scanning and initiating PHYs. -/
def setVals (t : EnabledSet) : Nat × Nat × Nat × Unit := (t.handle.toNat, t.duration, t.maxEvents, ())
def scanVals (q : ScanPhyParams) : Nat × Nat × Nat × Unit := (ofScan q.scanType, q.interval, q.window, ())
def initVals (p : ConnParams) : Nat × Nat × Nat × Nat × Nat × Nat × Nat × Nat × Unit :=
  (p.scanInterval, p.scanWindow, p.intervalMin, p.intervalMax, p.maxLatency, p.supervisionTimeout, p.minCeLength, p.maxCeLength, ())

/-- The octets of a list of structures. -/
theorem octets_structs {α : Type} (e : Fmt) (vals : α → e.T) (w : α → List Nat) (hw : ∀ a, octets (enc e (vals a) []) = w a)
    (n : Nat) (hn : ∀ a, (enc e (vals a) []).length = 8 * n) (l : List α) :
    octets ((l.map vals).flatMap (fun x => enc e x [])) = l.flatMap w := by
  induction l with
  | nil => rfl
  | cons a l ih =>
    rw [List.map_cons, List.flatMap_cons, List.flatMap_cons, octets_append _ _ n (hn a), ih, hw]

theorem width_structs {α : Type} (e : Fmt) (vals : α → e.T) (n : Nat) (hn : ∀ a, width e (vals a) 0 = n) (l : List α) :
    ((l.map vals).map (fun x => width e x 0)).sum = n * l.length := by
  induction l with
  | nil => rfl
  | cons a l ih =>
    rw [List.map_cons, List.map_cons, List.sum_cons, ih, hn, List.length_cons, Nat.mul_succ, Nat.add_comm]

theorem octets_sets (l : List EnabledSet) (h : ∀ t ∈ l, t.duration < 65536 ∧ t.maxEvents < 256) :
    octets ((l.map setVals).flatMap (fun x => enc structEnabledSet x [])) =
      l.flatMap (fun t => t.handle.toNat :: le 2 t.duration ++ [t.maxEvents]) := by
  have h1 := octets_structs structEnabledSet setVals (fun t => t.handle.toNat :: le 2 t.duration ++ [t.maxEvents % 256])
    (fun a => by
      show octets (bits 8 a.handle.toNat ++ (bits 16 a.duration ++ (bits 8 a.maxEvents ++ []))) = _
      rw [octets_bits8, octets_16, octets_bits8, mod8 (octet_lt _)]; simp [octets]) 4
    (fun a => by
      show (bits 8 a.handle.toNat ++ (bits 16 a.duration ++ (bits 8 a.maxEvents ++ []))).length = _
      simp [bits_length]) l
  refine h1.trans ?_
  clear h1
  induction l with
  | nil => rfl
  | cons a l ih =>
    rw [List.flatMap_cons, List.flatMap_cons, ih (fun t ht => h t (List.mem_cons_of_mem _ ht)), mod8 (h a List.mem_cons_self).2]

theorem octets_scans (l : List ScanPhyParams) :
    octets ((l.map scanVals).flatMap (fun x => enc structScanningPhyParameters x [])) =
      l.flatMap (fun q => ofScan q.scanType :: le 2 q.interval ++ le 2 q.window) :=
  octets_structs structScanningPhyParameters scanVals _
    (fun a => by
      show octets (bits 8 (ofScan a.scanType) ++ (bits 16 a.interval ++ (bits 16 a.window ++ []))) = _
      rw [octets_bits8, octets_16, octets_16, mod8 (ofScan_lt _)]; simp [octets]) 5
    (fun a => by
      show (bits 8 (ofScan a.scanType) ++ (bits 16 a.interval ++ (bits 16 a.window ++ []))).length = _
      simp [bits_length]) l

theorem octets_inits (l : List ConnParams) :
    octets ((l.map initVals).flatMap (fun x => enc structInitiatingPhyParameters x [])) = l.flatMap ofConn :=
  octets_structs structInitiatingPhyParameters initVals _
    (fun a => by
      show octets (bits 16 a.scanInterval ++ (bits 16 a.scanWindow ++ (bits 16 a.intervalMin ++ (bits 16 a.intervalMax ++
        (bits 16 a.maxLatency ++ (bits 16 a.supervisionTimeout ++ (bits 16 a.minCeLength ++ (bits 16 a.maxCeLength ++ [])))))))) = _
      simp [octets_16, octets, octets_16e, ofConn]) 16
    (fun a => by
      show (bits 16 a.scanInterval ++ (bits 16 a.scanWindow ++ (bits 16 a.intervalMin ++ (bits 16 a.intervalMax ++
        (bits 16 a.maxLatency ++ (bits 16 a.supervisionTimeout ++ (bits 16 a.minCeLength ++ (bits 16 a.maxCeLength ++ [])))))))).length = _
      simp [bits_length]) l

theorem fits_sets (l : List EnabledSet) (h : ∀ t ∈ l, t.duration < 65536 ∧ t.maxEvents < 256) :
    (l.map setVals).all (fun x => fits structEnabledSet x 0) = true := by
  rw [List.all_map, List.all_eq_true]
  intro a ha
  obtain ⟨h1, h2⟩ := h a ha
  simp [setVals, structEnabledSet, fits, octet_lt, h1, h2]

theorem fits_scans (l : List ScanPhyParams) (h : ∀ q ∈ l, q.interval < 65536 ∧ q.window < 65536) :
    (l.map scanVals).all (fun x => fits structScanningPhyParameters x 0) = true := by
  rw [List.all_map, List.all_eq_true]
  intro a ha
  obtain ⟨h1, h2⟩ := h a ha
  simp [scanVals, structScanningPhyParameters, fits, ofScan_lt, h1, h2]

theorem fits_inits (l : List ConnParams) (h : ∀ p ∈ l, ConnFits p) :
    (l.map initVals).all (fun x => fits structInitiatingPhyParameters x 0) = true := by
  rw [List.all_map, List.all_eq_true]
  intro a ha
  obtain ⟨h1, h2, h3, h4, h5, h6, h7, h8⟩ := h a ha
  simp [initVals, structInitiatingPhyParameters, fits, h1, h2, h3, h4, h5, h6, h7, h8]

theorem elems_length (l : List Nat) : (elems l).length = l.length := List.length_map _

theorem sum_sets (l : List EnabledSet) : l.length ≤ (l.flatMap (fun t => t.handle.toNat :: le 2 t.duration ++ [t.maxEvents])).length := by
  induction l with
  | nil => exact Nat.le_refl _
  | cons a l ih => simp only [List.flatMap_cons, List.length_append, List.length_cons] at ih ⊢; omega

theorem sets_of (l : List EnabledSet) : (l.map setVals).map enabledSet = l := by
  rw [List.map_map]
  have : enabledSet ∘ setVals = id := by funext t; simp [setVals, enabledSet]
  rw [this, List.map_id]

theorem inits_of (l : List ConnParams) : (l.map initVals).map initPhy = l := by
  rw [List.map_map]
  have : initPhy ∘ initVals = id := by funext t; rfl
  rw [this, List.map_id]

theorem scans_of (l : List ScanPhyParams) : every scanPhy (l.map scanVals) = some l := by
  induction l with
  | nil => rfl
  | cons q l ih =>
    rw [List.map_cons, every, ih]
    simp [scanVals, scanPhy, scanType_of]

theorem le_number (k n : Nat) : (elems (le k n)).foldr (fun x m => x.1 + 256 * m) 0 = n % 256 ^ k := by
  induction k generalizing n with
  | zero => simp [le, elems, Nat.mod_one]
  | succ k ih =>
    have h : (elems (le (k + 1) n)).foldr (fun x m => x.1 + 256 * m) 0 =
      n % 256 + 256 * (elems (le k (n / 256))).foldr (fun x m => x.1 + 256 * m) 0 := rfl
    rw [h, ih, Nat.pow_succ, Nat.mul_comm (256 ^ k) 256, Nat.mod_mul]

theorem key_of (k : Irk) : key (elems (ofKey k)) = k := by
  simp only [key, ofKey, le_number]
  have : k.toNat % 256 ^ 16 = k.toNat := Nat.mod_eq_of_lt k.isLt
  rw [this, BitVec.ofNat_toNat, BitVec.setWidth_eq]

theorem number_lt (c : Cmd) : number c < 65536 := by cases c <;> simp [number]

theorem opcode_of (u : Unused) (c : Cmd) : opcode (octetsOf u c) = number c := by
  have h := number_lt c
  show number c % 256 + 256 * (number c / 256 % 256) = number c
  omega

theorem code_of (st : Status) : code st = errorCode st := by cases st <;> rfl

theorem errorCode_lt (st : Status) : errorCode st < 256 := by cases st <;> decide

theorem complete_octets (op st : Nat) (hs : st < 256) : complete op st = [0x0e, 4, 1] ++ le 2 op ++ [st] := by
  show octets (enc bodyEvent (14, ()) (enc bodyCommandComplete (1, op, ()) (enc bodyLeSetRandomAddressComplete (st, ()) []))) = _
  simp [bodyEvent, bodyCommandComplete, bodyLeSetRandomAddressComplete, enc, bits_length, lenOf, octets_bits8, octets_16, octets,
    mod8 hs, octets_8e]

theorem completeTx_octets (op st tx : Nat) (hs : st < 256) (ht : tx < 256) :
    completeTx op st tx = [0x0e, 5, 1] ++ le 2 op ++ [st, tx] := by
  show octets (enc bodyEvent (14, ()) (enc bodyCommandComplete (1, op, ())
    (enc bodyLeSetExtendedAdvertisingParametersV1Complete (st, tx, ()) []))) = _
  simp [bodyEvent, bodyCommandComplete, bodyLeSetExtendedAdvertisingParametersV1Complete, enc, bits_length, lenOf, octets_bits8,
    octets_16, octets, mod8 hs, mod8 ht, octets_8e]

theorem status_octets (op st : Nat) (hs : st < 256) : status op st = [0x0f, 4, st, 1] ++ le 2 op := by
  show octets (enc bodyEvent (15, ()) (enc bodyCommandStatus (st, 1, op, ()) (enc bodyLeCreateConnectionStatus () []))) = _
  simp [bodyEvent, bodyCommandStatus, bodyLeCreateConnectionStatus, enc, bits_length, lenOf, octets_bits8, octets_16, octets,
    mod8 hs, octets_16e]

end Verif.Wire
