import Verif.Port.Air
import Verif.Port.Lemmas
import Verif.Pdl.Props
import Verif.Hec.Props
/-!
# C85, C86: the baseband trace and the beacon
-/
namespace Verif.Port

open Pdl (Packet Vals serialize parse)

/-! ### Specification -/

/-- The octets begin with this type of link layer packet, and there are two addresses after it. -/
def ofType (t : Nat) (l : List Nat) : Bool := l.head? == some t && decide (13 ≤ l.length)

/-- The packets that are traced: pages (type 16) and packets of the link managers (type 52). -/
def traced (ls : List (List Nat)) : List (List Nat) := ls.filter (fun l => ofType 16 l || ofType 52 l)

/-- The address that the packet comes from: six octets, the least significant first (Core Vol 2 Part B 1.2: LAP, UAP, NAP). -/
def sourceLap (l : List Nat) : Nat := l.getD 1 0 + 256 * l.getD 2 0 + 65536 * l.getD 3 0
def sourceUap (l : List Nat) : Nat := l.getD 4 0
def sourceNap (l : List Nat) : Nat := l.getD 5 0 + 256 * l.getD 6 0

/-- The class of device of a page. -/
def pageClass (l : List Nat) : Nat := l.getD 13 0 + 256 * l.getD 14 0 + 65536 * l.getD 15 0

/-- A header of the baseband with LT_ADDR 0, this type and FLOW, ARQN and SEQN set: ten bits, and the check of C16 above them. -/
def isHeader (uap type h : Nat) : Prop :=
  h % 1024 = 8 * type + 896 ∧ h / 1024 = (Hec.hec (UInt8.ofNat uap) (UInt32.ofNat (8 * type + 896))).toNat

/-- The record of a page is an FHS packet with the address of the sender and its class of device. The fields are those of
packets/bredr_bb_packets.pdl, in order; the lower address part and the reference LAP, the ninth and the tenth, are `x` and `y`. -/
def fhsRecord (l : List Nat) (x y : Nat) (r : Bytes) : Prop := ∃ h, isHeader (sourceUap l) 2 h ∧
  parse fhs (r.map (·.toNat)) = some (((0, 0, 0, 0, 0, 3, 0, 0, x, y, sourceUap l, h, 0xCB9, ()),
    (0, sourceLap l, 0, 0, 0, sourceUap l, sourceNap l, pageClass l, 1, 0, 0, 0, ()), ()), [])

/-- The record of a packet of a link manager is a DM1 packet with that packet: LLID 3, FLOW set. -/
def dm1Record (l : List Nat) (x y : Nat) (r : Bytes) : Prop := ∃ h, isHeader (sourceUap l) 3 h ∧
  parse dm1 (r.map (·.toNat)) = some (((0, 0, 0, 0, 0, 3, 0, 0, x, y, sourceUap l, h, 0xCB9, ()), (3, 1, 0, ()), ()), l.drop 13)

/-- The record tells what the packet was. -/
def describes (l : List Nat) (r : Bytes) : Prop :=
  (ofType 16 l = true → fhsRecord l (sourceLap l) (sourceLap l) r) ∧ (ofType 52 l = true → dm1Record l (sourceLap l) (sourceLap l) r)

/-- The same, but for the lower address part and the reference LAP, which have lost all but their eight lowest bits, and for the
packets of link managers that are longer than 31 octets. -/
def describesMostly (l : List Nat) (r : Bytes) : Prop :=
  (ofType 16 l = true → fhsRecord l (sourceLap l % 256) (sourceLap l % 256) r) ∧
  (ofType 52 l = true → l.length < 13 + 32 → dm1Record l (sourceLap l % 256) (sourceLap l % 256) r)

/-! ### Lemmas -/

theorem num_append (x : List Bool) : ∀ y, Pdl.num (x ++ y) = Pdl.num x + 2 ^ x.length * Pdl.num y := by
  induction x with
  | nil => intro y; simp [Pdl.num]
  | cons b x ih =>
    intro y
    simp only [List.cons_append, Pdl.num, ih, List.length_cons, Nat.pow_succ]
    rw [Nat.mul_add, ← Nat.add_assoc, ← Nat.mul_assoc, Nat.mul_comm (2 ^ x.length) 2]

theorem num_unpack (a : Nat) (h : a < 256) (l : List Nat) :
    Pdl.num (Pdl.unpack (a :: l)) = a + 256 * Pdl.num (Pdl.unpack l) := by
  rw [Pdl.unpack, List.flatMap_cons, num_append, Pdl.num_bits 8 a (by simpa using h), Pdl.bits_length]
  rfl

theorem unpack_append (x y : List Nat) : Pdl.unpack (x ++ y) = Pdl.unpack x ++ Pdl.unpack y := by simp [Pdl.unpack]

theorem take_unpack (x y : List Nat) (n : Nat) (h : n = 8 * x.length) :
    Pdl.takeBits n (Pdl.unpack (x ++ y)) = some (Pdl.unpack x, Pdl.unpack y) := by
  subst h
  have := Pdl.unpack_length x
  rw [unpack_append, Pdl.takeBits, if_neg (by simp; omega), List.take_left' this, List.drop_left' this]

/-- A link layer packet has its fields. -/
theorem dec_header (l : List Nat) (ho : ∀ x ∈ l, x < 256) (h : 13 ≤ l.length) :
    ∃ d, Pdl.dec Pdl.LinkLayer.bodyLinkLayerPacket (fun _ => 0) [] (Pdl.unpack l)
      = some ((l.getD 0 0, sourceLap l + 16777216 * sourceUap l + 4294967296 * sourceNap l, d, ()), Pdl.unpack (l.drop 13), []) := by
  match l, h with
  | a0 :: a1 :: a2 :: a3 :: a4 :: a5 :: a6 :: a7 :: a8 :: a9 :: a10 :: a11 :: a12 :: r, _ =>
    simp only [List.mem_cons, forall_eq_or_imp] at ho
    obtain ⟨h0, h1, h2, h3, h4, h5, h6, -⟩ := ho
    have e1 := take_unpack [a0] ([a1, a2, a3, a4, a5, a6] ++ ([a7, a8, a9, a10, a11, a12] ++ r)) 8 rfl
    have e2 := take_unpack [a1, a2, a3, a4, a5, a6] ([a7, a8, a9, a10, a11, a12] ++ r) 48 rfl
    have e3 := take_unpack [a7, a8, a9, a10, a11, a12] r 48 rfl
    simp only [List.cons_append, List.nil_append] at e1 e2 e3
    have n0 : Pdl.num (Pdl.unpack [a0]) = a0 := by rw [num_unpack a0 h0]; simp [Pdl.unpack, Pdl.num]
    have n1 : Pdl.num (Pdl.unpack [a1, a2, a3, a4, a5, a6])
        = a1 + 256 * a2 + 65536 * a3 + 16777216 * a4 + 4294967296 * (a5 + 256 * a6) := by
      rw [num_unpack a1 h1, num_unpack a2 h2, num_unpack a3 h3, num_unpack a4 h4, num_unpack a5 h5, num_unpack a6 h6]
      simp only [Pdl.unpack, List.flatMap_nil, Pdl.num]
      omega
    refine ⟨Pdl.num (Pdl.unpack [a7, a8, a9, a10, a11, a12]), ?_⟩
    simp only [Pdl.LinkLayer.bodyLinkLayerPacket, Pdl.dec, e1, e2, e3, Pdl.payloadDec, n0, n1]
    rfl

theorem short_header (l : List Nat) (h : l.length < 13) : parse linkLayerPacket l = none := by
  have hd : linkLayerPacket ∈ Pdl.declared := by
    refine List.mem_flatten.mpr ⟨Pdl.LinkLayer.packetsLinkLayerPacket, by simp [Pdl.families], ?_⟩
    simp [linkLayerPacket, Pdl.LinkLayer.packetsLinkLayerPacket, Pdl.LinkLayer.packetsLinkLayerPacket0]
  cases hp : parse linkLayerPacket l with
  | none => rfl
  | some r =>
    obtain ⟨v, pl⟩ := r
    obtain ⟨-, h1, -⟩ := Pdl.C80_again _ hd l v pl hp
    obtain ⟨h2, -⟩ := Pdl.C80_octets _ hd v pl
    obtain ⟨⟨a, b, c, ⟨⟩⟩, ⟨⟩⟩ := v
    have h3 : Pdl.packetWidth linkLayerPacket.levels ((a, b, c, ()), ()) pl.length = 8 + (48 + (48 + (8 * pl.length + 0))) := rfl
    rw [h3] at h2
    have h1' : (serialize linkLayerPacket ((a, b, c, ()), ()) pl).length ≤ l.length := h1
    omega

theorem getD_lt (l : List Nat) (ho : ∀ x ∈ l, x < 256) (i : Nat) : l.getD i 0 < 256 := by
  rw [List.getD_eq_getElem?_getD]
  cases h : l[i]? with
  | none => simp
  | some x => exact ho x (List.mem_of_getElem? h)

theorem source_bounds (l : List Nat) (ho : ∀ x ∈ l, x < 256) :
    sourceLap l < 16777216 ∧ sourceUap l < 256 ∧ sourceNap l < 65536 ∧ pageClass l < 16777216 := by
  have h := getD_lt l ho
  have := h 1; have := h 2; have := h 3; have := h 4; have := h 5; have := h 6; have := h 13; have := h 14; have := h 15
  simp only [sourceLap, sourceUap, sourceNap, pageClass]
  omega

theorem dec_page (r : List Nat) (ho : ∀ x ∈ r, x < 256) (h : 4 ≤ r.length) : ∃ w rest,
    Pdl.dec Pdl.LinkLayer.bodyPage (fun _ => 0) [] (Pdl.unpack r)
      = some ((r.getD 0 0 + 256 * r.getD 1 0 + 65536 * r.getD 2 0, w, ()), [], rest) := by
  match r, h with
  | b0 :: b1 :: b2 :: b3 :: r, _ =>
    simp only [List.mem_cons, forall_eq_or_imp] at ho
    have e1 := take_unpack [b0, b1, b2] ([b3] ++ r) 24 rfl
    have e2 := take_unpack [b3] r 8 rfl
    simp only [List.cons_append, List.nil_append] at e1 e2
    have n0 : Pdl.num (Pdl.unpack [b0, b1, b2]) = b0 + 256 * b1 + 65536 * b2 := by
      rw [num_unpack b0 ho.1, num_unpack b1 ho.2.1, num_unpack b2 ho.2.2.1]
      simp only [Pdl.unpack, List.flatMap_nil, Pdl.num]
      omega
    refine ⟨Pdl.num (Pdl.unpack [b3]), Pdl.unpack r, ?_⟩
    simp only [Pdl.LinkLayer.bodyPage, Pdl.dec, e1, e2, n0]
    rfl

theorem dec_page_short (r : List Nat) (h : r.length < 4) : Pdl.dec Pdl.LinkLayer.bodyPage (fun _ => 0) [] (Pdl.unpack r) = none := by
  have hu := Pdl.unpack_length r
  simp only [Pdl.LinkLayer.bodyPage, Pdl.dec, Pdl.takeBits]
  by_cases h3 : (Pdl.unpack r).length < 24
  · simp [h3]
  · simp only [h3, if_false]
    rw [if_pos (by rw [List.length_drop]; omega)]

theorem pageClass_drop (l : List Nat) : pageClass l = (l.drop 13).getD 0 0 + 256 * (l.drop 13).getD 1 0 + 65536 * (l.drop 13).getD 2 0 := by
  simp [pageClass, List.getD_eq_getElem?_getD, List.getElem?_drop]

theorem head_getD (l : List Nat) (t : Nat) (h : l.head? = some t) : l.getD 0 0 = t := by
  cases l with
  | nil => cases h
  | cons a l => simpa using h

/-- The number of the source address. -/
def source (l : List Nat) : Nat := sourceLap l + 16777216 * sourceUap l + 4294967296 * sourceNap l

theorem decAll_step {l : Pdl.Level} {ls : List Pdl.Level} {bs : List Bool} {v p r} {w : Vals ls × List Bool}
    (h : Pdl.dec l.body (fun _ => 0) [] bs = some (v, p, r)) (hm : Pdl.meets l.body v l.cond = true)
    (hr : Pdl.decAll ls p = some w) : Pdl.decAll (l :: ls) bs = some ((v, w.1), w.2) := by
  simp only [Pdl.decAll, h, hm, if_true, hr]
  rfl

theorem decAll_none {l : Pdl.Level} {ls : List Pdl.Level} {bs : List Bool} {v p r}
    (h : Pdl.dec l.body (fun _ => 0) [] bs = some (v, p, r)) (hr : Pdl.decAll ls p = none) : Pdl.decAll (l :: ls) bs = none := by
  simp only [Pdl.decAll, h, hr]
  split <;> rfl

theorem parse_of {p : Packet} {l : List Nat} {v : Vals p.levels} {q : List Bool} (h : Pdl.decAll p.levels (Pdl.unpack l) = some (v, q)) :
    parse p l = some (v, Pdl.octets q) := by
  simp only [parse, h]

theorem parse_header (l : List Nat) (ho : ∀ x ∈ l, x < 256) (h : 13 ≤ l.length) (t : Nat) (ht : l.head? = some t) :
    ∃ d, parse linkLayerPacket l = some (((t, source l, d, ()), ()), l.drop 13) := by
  obtain ⟨d, hd⟩ := dec_header l ho h
  rw [head_getD l t ht] at hd
  refine ⟨d, ?_⟩
  have h1 := parse_of (p := linkLayerPacket) (decAll_step (l := ⟨Pdl.LinkLayer.bodyLinkLayerPacket, []⟩) (ls := []) hd rfl rfl)
  rw [h1, Pdl.octets_unpack (l.drop 13) (fun x hx => ho x (List.mem_of_mem_drop hx))]
  rfl

theorem parse_page (l : List Nat) (ho : ∀ x ∈ l, x < 256) (h : 17 ≤ l.length) (ht : l.head? = some 16) :
    ∃ v w, parse page l = some ((v, (pageClass l, w, ()), ()), []) := by
  obtain ⟨d, hd⟩ := dec_header l ho (by omega)
  rw [head_getD l 16 ht] at hd
  obtain ⟨w, rest, hp⟩ := dec_page (l.drop 13) (fun x hx => ho x (List.mem_of_mem_drop hx)) (by rw [List.length_drop]; omega)
  rw [← pageClass_drop] at hp
  exact ⟨(16, source l, d, ()), w, parse_of (p := page) (decAll_step (l := ⟨Pdl.LinkLayer.bodyLinkLayerPacket, [(0, 16)]⟩) hd rfl
    (decAll_step (l := ⟨Pdl.LinkLayer.bodyPage, []⟩) (ls := []) hp rfl rfl))⟩

theorem parse_page_short (l : List Nat) (ho : ∀ x ∈ l, x < 256) (h : 13 ≤ l.length) (hl : l.length < 17) : parse page l = none := by
  obtain ⟨d, hd⟩ := dec_header l ho h
  have hp := dec_page_short (l.drop 13) (by rw [List.length_drop]; omega)
  have h2 : Pdl.decAll [⟨Pdl.LinkLayer.bodyPage, []⟩] (Pdl.unpack (l.drop 13)) = none := by
    simp only [Pdl.decAll, hp]
  have : Pdl.decAll page.levels (Pdl.unpack l) = none := decAll_none (l := ⟨Pdl.LinkLayer.bodyLinkLayerPacket, [(0, 16)]⟩) hd h2
  simp only [parse, this]

theorem parse_lmp (l : List Nat) (ho : ∀ x ∈ l, x < 256) (h : 13 ≤ l.length) (ht : l.head? = some 52) :
    ∃ v, parse lmp l = some (v, l.drop 13) := by
  obtain ⟨d, hd⟩ := dec_header l ho h
  rw [head_getD l 52 ht] at hd
  refine ⟨((52, source l, d, ()), (), ()), ?_⟩
  have h1 := parse_of (p := lmp) (decAll_step (l := ⟨Pdl.LinkLayer.bodyLinkLayerPacket, [(0, 52)]⟩) hd rfl
    (decAll_step (l := ⟨Pdl.LinkLayer.bodyLmp, []⟩) (ls := []) (v := ()) (p := Pdl.unpack (l.drop 13)) (r := []) rfl rfl rfl))
  rw [h1, Pdl.octets_unpack (l.drop 13) (fun x hx => ho x (List.mem_of_mem_drop hx))]
  rfl

theorem fhs_declared : fhs ∈ Pdl.declared :=
  List.mem_flatten.mpr ⟨Pdl.Baseband.packetsBaseBandPacket, by simp [Pdl.families],
    by simp [fhs, Pdl.Baseband.packetsBaseBandPacket, Pdl.Baseband.packetsBaseBandPacket0]⟩

theorem dm1_declared : dm1 ∈ Pdl.declared :=
  List.mem_flatten.mpr ⟨Pdl.Baseband.packetsBaseBandPacket, by simp [Pdl.families],
    by simp [dm1, Pdl.Baseband.packetsBaseBandPacket, Pdl.Baseband.packetsBaseBandPacket0]⟩

theorem header_is (uap type : Nat) (ht : type < 16) :
    isHeader uap type (Hec.buildHeader (UInt8.ofNat uap) 0 (UInt8.ofNat type) true true true).toNat := by
  have e : (UInt8.ofNat type).toNat = type := by simp; omega
  obtain ⟨f, h1, h2⟩ := Hec.C16_header_layout (UInt8.ofNat uap) 0 (UInt8.ofNat type) true true true (by decide) (by omega)
  rw [e] at h1
  have h3 : f.toNat = 8 * type + 896 := by simp at h1; omega
  have h4 : f = UInt32.ofNat (8 * type + 896) := by rw [← h3]; simp
  rw [h2, h3]
  simp only [isHeader]
  rw [← h4]
  omega

theorem back (l : List Nat) (h : ∀ x ∈ l, x < 256) : (l.map UInt8.ofNat).map (·.toNat) = l := by
  rw [List.map_map]
  conv => rhs; rw [← List.map_id l]
  apply List.map_congr_left
  intro x hx
  have := h x hx
  simp; omega

theorem fhs_length (v : Vals fhs.levels) : (serialize fhs v []).length ≤ 100 := by
  have h := (Pdl.C80_octets fhs fhs_declared v []).1
  have e : Pdl.packetWidth fhs.levels v ([] : List Nat).length = 336 := by
    obtain ⟨⟨a1, a2, a3, a4, a5, a6, a7, a8, a9, a10, a11, a12, a13, u⟩,
      ⟨b1, b2, b3, b4, b5, b6, b7, b8, b9, b10, b11, b12, u'⟩, w⟩ := v
    simp only [fhs, Pdl.packetWidth, Pdl.width, Pdl.Baseband.bodyBaseBandPacket, Pdl.Baseband.bodyFHSAclPacket, List.length_nil]
  omega

theorem dm1_length (v : Vals dm1.levels) (pl : List Nat) : (serialize dm1 v pl).length ≤ 100 + pl.length := by
  have h := (Pdl.C80_octets dm1 dm1_declared v pl).1
  have e : Pdl.packetWidth dm1.levels v pl.length = 200 + 8 * pl.length := by
    obtain ⟨⟨a1, a2, a3, a4, a5, a6, a7, a8, a9, a10, a11, a12, a13, u⟩, ⟨b1, b2, b3, u'⟩, w⟩ := v
    simp only [dm1, Pdl.packetWidth, Pdl.width, Pdl.Baseband.bodyBaseBandPacket, Pdl.Baseband.bodyDM1AclPacket]
    omega
  omega

theorem fhs_legal (a h u lap n c : Nat) (ha : a < 256) (hh : h < 4294967296) (hu : u < 256) (hl : lap < 16777216) (hn : n < 65536)
    (hc : c < 16777216) :
    fhs.legal ((0, 0, 0, 0, 0, 3, 0, 0, a, a, u, h, 0xCB9, ()), (0, lap, 0, 0, 0, u, n, c, 1, 0, 0, 0, ()), ()) [] = true := by
  have ha' : a < 2 ^ 24 := by omega
  have ha'' : a < 2 ^ 32 := by omega
  simp only [Packet.legal, fhs, Pdl.fitsAll, Pdl.fits, Pdl.Baseband.bodyBaseBandPacket, Pdl.Baseband.bodyFHSAclPacket]
  have hu' : u < 2 ^ 8 := hu
  have hh' : h < 2 ^ 32 := hh
  have hl' : lap < 2 ^ 24 := hl
  have hn' : n < 2 ^ 16 := hn
  have hc' : c < 2 ^ 24 := hc
  simp only [decide_eq_true ha', decide_eq_true ha'', decide_eq_true hu', decide_eq_true hh', decide_eq_true hl', decide_eq_true hn',
    decide_eq_true hc']
  rfl

theorem dm1_legal (a h u : Nat) (pl : List Nat) (ha : a < 256) (hh : h < 4294967296) (hu : u < 256) (hp : pl.length < 32)
    (ho : ∀ x ∈ pl, x < 256) :
    dm1.legal ((0, 0, 0, 0, 0, 3, 0, 0, a, a, u, h, 0xCB9, ()), (3, 1, 0, ()), ()) pl = true := by
  have ha' : a < 2 ^ 24 := by omega
  have ha'' : a < 2 ^ 32 := by omega
  have hu' : u < 2 ^ 8 := hu
  have hh' : h < 2 ^ 32 := hh
  have hall : pl.all (· < 256) = true := by simpa using ho
  have hb : ∀ n : Fin 32, Pdl.fits Pdl.Baseband.bodyDM1AclPacket (3, 1, 0, ()) (8 * n.1) = true := by decide +kernel
  have hb' : Pdl.fits Pdl.Baseband.bodyDM1AclPacket (3, 1, 0, ()) (8 * pl.length) = true := hb ⟨pl.length, hp⟩
  simp only [Packet.legal, dm1, Pdl.fitsAll, Pdl.packetWidth, hb', Pdl.fits, Pdl.Baseband.bodyBaseBandPacket]
  simp only [decide_eq_true ha', decide_eq_true ha'', decide_eq_true hu', decide_eq_true hh', hall]
  cases pl <;> rfl

theorem read_back (p : Packet) (hp : p ∈ Pdl.declared) (v : Vals p.levels) (pl : List Nat) (h : p.legal v pl = true) :
    parse p (((serialize p v pl).map UInt8.ofNat).map (·.toNat)) = some (v, pl) := by
  rw [back _ (Pdl.C80_octets p hp v pl).2, Pdl.C80_read p hp v pl h]

theorem record_page (l : List Nat) (ho : ∀ x ∈ l, x < 256) (h : 17 ≤ l.length) (ht : l.head? = some 16) :
    ∃ r, recordOf l = some (some r) ∧ r.length ≤ 100 ∧
      fhsRecord l (sourceLap l % 256) (sourceLap l % 256) (r.map UInt8.ofNat) := by
  obtain ⟨d, h1⟩ := parse_header l ho (by omega) 16 ht
  obtain ⟨v, w, h2⟩ := parse_page l ho h ht
  obtain ⟨b1, b2, b3, b4⟩ := source_bounds l ho
  have s1 : source l % 16777216 = sourceLap l := by simp only [source]; omega
  have s2 : source l / 16777216 % 256 = sourceUap l := by simp only [source]; omega
  have s3 : source l / 4294967296 % 65536 = sourceNap l := by simp only [source]; omega
  have hr : recordOf l = some (some (serialize fhs (common (sourceLap l) (sourceUap l) 2,
      (0, sourceLap l, 0, 0, 0, sourceUap l, sourceNap l, pageClass l, 1, 0, 0, 0, ()), ()) [])) := by
    simp only [recordOf, h1, h2, s1, s2, s3, if_true]
  refine ⟨_, hr, ?_, _, header_is (sourceUap l) 2 (by decide), ?_⟩
  · exact fhs_length _
  · exact read_back fhs fhs_declared _ _ (fhs_legal _ _ _ _ _ _ (Nat.mod_lt _ (by decide)) (UInt32.toNat_lt _) b2 b1 b3 b4)

theorem record_lmp (l : List Nat) (ho : ∀ x ∈ l, x < 256) (h : 13 ≤ l.length) (ht : l.head? = some 52) :
    ∃ r, recordOf l = some (some r) ∧ r.length ≤ 100 + l.length ∧
      (l.length < 45 → dm1Record l (sourceLap l % 256) (sourceLap l % 256) (r.map UInt8.ofNat)) := by
  obtain ⟨d, h1⟩ := parse_header l ho (by omega) 52 ht
  obtain ⟨v, h2⟩ := parse_lmp l ho h ht
  obtain ⟨b1, b2, b3, b4⟩ := source_bounds l ho
  have s1 : source l % 16777216 = sourceLap l := by simp only [source]; omega
  have s2 : source l / 16777216 % 256 = sourceUap l := by simp only [source]; omega
  have hr : recordOf l = some (some (serialize dm1 (common (sourceLap l) (sourceUap l) 3, (3, 1, 0, ()), ()) (l.drop 13))) := by
    simp only [recordOf, h1, h2, s1, s2, if_true, if_neg (show ¬ (52 = 16) by decide)]
  refine ⟨_, hr, ?_, fun hl => ⟨_, header_is (sourceUap l) 3 (by decide), ?_⟩⟩
  · have := dm1_length (common (sourceLap l) (sourceUap l) 3, (3, 1, 0, ()), ()) (l.drop 13)
    rw [List.length_drop] at this
    exact Nat.le_trans this (by omega)
  · exact read_back dm1 dm1_declared _ _ (dm1_legal _ _ _ _ (Nat.mod_lt _ (by decide)) (UInt32.toNat_lt _) b2
      (by rw [List.length_drop]; omega) (fun x hx => ho x (List.mem_of_mem_drop hx)))

theorem record_other (l : List Nat) (ho : ∀ x ∈ l, x < 256) (h1 : ofType 16 l = false) (h2 : ofType 52 l = false) :
    recordOf l = some none := by
  by_cases h : 13 ≤ l.length
  · cases hh : l.head? with
    | none => cases l with
      | nil => simp at h
      | cons a l => cases hh
    | some t =>
      obtain ⟨d, hp⟩ := parse_header l ho h t hh
      simp only [ofType, hh, decide_eq_true h, Bool.and_true] at h1 h2
      have n1 : ¬ t = 16 := by intro e; subst e; cases h1
      have n2 : ¬ t = 52 := by intro e; subst e; cases h2
      simp only [recordOf, hp, n1, n2, if_false]
  · simp only [recordOf, short_header l (by omega)]

theorem record_short (l : List Nat) (ho : ∀ x ∈ l, x < 256) (h : 13 ≤ l.length) (hl : l.length < 17) (ht : l.head? = some 16) :
    recordOf l = none := by
  obtain ⟨d, hp⟩ := parse_header l ho h 16 ht
  simp only [recordOf, hp, parse_page_short l ho h hl, if_true]

theorem ofType_iff (t : Nat) (l : List Nat) : ofType t l = true ↔ l.head? = some t ∧ 13 ≤ l.length := by
  simp [ofType]

/-- What the records of the packets are. -/
theorem receive_records (clock : Nat → Nat) (ls : List (List Nat)) : ∀ (c c' : Capture), (∀ l ∈ ls, ∀ x ∈ l, x < 256) →
    (∀ i, clock i < 4294967296 * 1000000) → (∀ l ∈ ls, l.length < 4294967000) → c.receive clock ls = some c' →
    ∃ es : List Raw, c'.file = c.file ++ es.flatMap Raw.bytes ∧ es.length = (traced ls).length ∧ (∀ e ∈ es, e.Ok) ∧
      ∀ i l e, (traced ls)[i]? = some l → es[i]? = some e → e.time = clock (c.count + i) ∧ describesMostly l e.data := by
  induction ls with
  | nil =>
    intro c c' _ _ _ h
    simp only [Capture.receive, Option.some.injEq] at h
    subst h
    exact ⟨[], by simp, rfl, by simp, by simp [traced]⟩
  | cons l ls ih =>
    intro c c' ho hc hl h
    simp only [List.mem_cons, forall_eq_or_imp] at ho hl
    have key : ∀ r, recordOf l = some (some r) → (ofType 16 l || ofType 52 l) = true → r.length ≤ 100 + l.length →
        describesMostly l (r.map UInt8.ofNat) →
        ∃ es : List Raw, c'.file = c.file ++ es.flatMap Raw.bytes ∧ es.length = (traced (l :: ls)).length ∧ (∀ e ∈ es, e.Ok) ∧
          ∀ i m e, (traced (l :: ls))[i]? = some m → es[i]? = some e → e.time = clock (c.count + i) ∧ describesMostly m e.data := by
      intro r hr ht hlen hd
      simp only [Capture.receive, hr] at h
      obtain ⟨es, h1, h2, h3, h4⟩ := ih _ _ ho.2 hc hl.2 h
      have etr : traced (l :: ls) = l :: traced ls := by simp only [traced, List.filter_cons, ht, if_true]
      refine ⟨⟨clock c.count, r.map UInt8.ofNat⟩ :: es, ?_, ?_, ?_, ?_⟩
      · simp [h1, Capture.append, Raw.bytes]
      · rw [etr, List.length_cons, List.length_cons, h2]
      · intro e he
        rcases List.mem_cons.mp he with rfl | he
        · refine ⟨hc _, ?_⟩
          simp only [List.length_map]
          have := hl.1
          omega
        · exact h3 e he
      · intro i m e hm he
        rw [etr] at hm
        cases i with
        | zero =>
          simp only [List.getElem?_cons_zero, Option.some.injEq] at hm he
          subst hm; subst he
          exact ⟨rfl, hd⟩
        | succ i =>
          simp only [List.getElem?_cons_succ] at hm he
          obtain ⟨e1, e2⟩ := h4 i m e hm he
          refine ⟨?_, e2⟩
          rw [e1]
          simp only [Capture.append]
          congr 1; omega
    by_cases t1 : ofType 16 l = true
    · obtain ⟨t1a, t1b⟩ := (ofType_iff 16 l).mp t1
      have t2 : ¬ ofType 52 l = true := by
        intro t2
        have := ((ofType_iff 52 l).mp t2).1
        rw [t1a] at this
        cases this
      by_cases h17 : 17 ≤ l.length
      · obtain ⟨r, hr, hlen, hd⟩ := record_page l ho.1 h17 t1a
        exact key r hr (by rw [t1]; rfl) (by omega) ⟨fun _ => hd, fun t => absurd t t2⟩
      · simp only [Capture.receive, record_short l ho.1 t1b (by omega) t1a] at h
        cases h
    · by_cases t2 : ofType 52 l = true
      · obtain ⟨t2a, t2b⟩ := (ofType_iff 52 l).mp t2
        obtain ⟨r, hr, hlen, hd⟩ := record_lmp l ho.1 t2b t2a
        exact key r hr (by rw [t2, Bool.or_true]) hlen ⟨fun t => absurd t t1, fun _ => hd⟩
      · rw [Bool.not_eq_true] at t1 t2
        simp only [Capture.receive, record_other l ho.1 t1 t2] at h
        obtain ⟨es, h1, h2, h3, h4⟩ := ih _ _ ho.2 hc hl.2 h
        have etr : traced (l :: ls) = traced ls := by simp [traced, List.filter_cons, t1, t2]
        rw [etr]
        exact ⟨es, h1, h2, h3, h4⟩

/-! ### C85 -/

/-- C85. The file of the baseband sniffer is a pcap file of link type 255 (LINKTYPE_BLUETOOTH_BREDR_BB) in which there is one
record for each page and each packet of a link manager, in order, with the second at which it came; the record of a page is
an FHS packet with the address and the class of device of its sender, and that of a packet of a link manager a DM1 packet that
carries it. Partial: the lower address part and the reference LAP of the record have only eight of their bits; packets of link
managers longer than 31 octets are left out (`C85_lap_violated`, `C85_long_violated`); the fraction of the second is not claimed,
see `C83_time_violated`. The full statement has `describes` in the place of `describesMostly`. -/
theorem C85_trace_partial (clock : Nat → Nat) (ls : List (List Nat)) (c : Capture) (ho : ∀ l ∈ ls, ∀ x ∈ l, x < 256)
    (hc : ∀ i, clock i < 4294967296 * 1000000) (hl : ∀ l ∈ ls, l.length < 4294967000)
    (h : Capture.start.receive clock ls = some c) :
    ∃ rs, readFile c.file = some (255, rs) ∧ rs.length = (traced ls).length ∧
      ∀ i l r, (traced ls)[i]? = some l → rs[i]? = some r →
        r.seconds = clock i / 1000000 ∧ r.length = r.data.length ∧ describesMostly l r.data := by
  obtain ⟨es, h1, h2, h3, h4⟩ := receive_records clock ls _ _ ho hc hl h
  refine ⟨es.map Raw.toRec, ?_, by rw [List.length_map, h2], ?_⟩
  · rw [h1]; exact readFile_raw 255 (by decide) es h3
  · intro i l r hi hr
    rw [List.getElem?_map, Option.map_eq_some_iff] at hr
    obtain ⟨e, he, rfl⟩ := hr
    obtain ⟨e1, e2⟩ := h4 i l e hi he
    refine ⟨?_, rfl, e2⟩
    simp only [Raw.toRec, e1, Capture.start, Nat.zero_add]

/-- C85, when the sniffer survives: exactly if there is no page of less than seventeen octets among the packets. -/
theorem C85_survives (clock : Nat → Nat) (ls : List (List Nat)) (ho : ∀ l ∈ ls, ∀ x ∈ l, x < 256) : ∀ c : Capture,
    (c.receive clock ls).isSome = ls.all (fun l => !(ofType 16 l && decide (l.length < 17))) := by
  induction ls with
  | nil => intro c; rfl
  | cons l ls ih =>
    intro c
    simp only [List.mem_cons, forall_eq_or_imp] at ho
    have ih := ih ho.2
    rw [List.all_cons]
    by_cases t1 : ofType 16 l = true
    · obtain ⟨t1a, t1b⟩ := (ofType_iff 16 l).mp t1
      by_cases h17 : l.length < 17
      · simp only [Capture.receive, record_short l ho.1 t1b h17 t1a, t1, h17]
        simp
      · obtain ⟨r, hr, -⟩ := record_page l ho.1 (by omega) t1a
        simp only [Capture.receive, hr, ih, t1, h17]
        simp
    · by_cases t2 : ofType 52 l = true
      · obtain ⟨t2a, t2b⟩ := (ofType_iff 52 l).mp t2
        obtain ⟨r, hr, -⟩ := record_lmp l ho.1 t2b t2a
        simp only [Capture.receive, hr, ih, t1]
        simp
      · rw [Bool.not_eq_true] at t1 t2
        simp only [Capture.receive, record_other l ho.1 t1 t2, ih, t1]
        simp

/-- Three packets: a page of AA:BB:CC:11:22:33, an LMP packet of it with two octets, and another packet. -/
def demoAir : List (List Nat) :=
  [[16, 0x33, 0x22, 0x11, 0xCC, 0xBB, 0xAA, 6, 5, 4, 3, 2, 1, 0x0C, 0x02, 0x5A, 0], [11, 0, 0, 0, 0, 0, 0, 0, 0, 0, 0, 0, 0],
    [52, 0x33, 0x22, 0x11, 0xCC, 0xBB, 0xAA, 6, 5, 4, 3, 2, 1, 0x03, 0x27]]

example : (traced demoAir).length = 2 ∧ (Capture.start.receive (fun i => 1700000000000000 + i) demoAir).isSome = true := by
  decide +kernel

example : (sourceLap demoAir[0], sourceUap demoAir[0], sourceNap demoAir[0], pageClass demoAir[0]) = (0x112233, 0xCC, 0xAABB, 0x5A020C) := by
  decide +kernel

/-- C85: the lower address part and the reference LAP are not the LAP of the sender. -/
theorem C85_lap_violated : ∃ l, ofType 16 l = true ∧ ∃ c r, Capture.start.receive (fun _ => 0) [l] = some c ∧
    (readFile c.file).map (·.2) = some [r] ∧ ¬ describes l r.data := by
  refine ⟨demoAir[0], by decide +kernel, ?_⟩
  have hs : (Capture.start.receive (fun _ => 0) [demoAir[0]]).isSome = true := by decide +kernel
  obtain ⟨c, hc⟩ := Option.isSome_iff_exists.mp hs
  have ho : ∀ l ∈ [demoAir[0]], ∀ x ∈ l, x < 256 := by decide +kernel
  have hl : ∀ l ∈ [demoAir[0]], l.length < 4294967000 := by decide +kernel
  obtain ⟨rs, h1, h2, h3⟩ := C85_trace_partial (fun _ => 0) [demoAir[0]] c ho (fun _ => by decide) hl hc
  have h2' : rs.length = 1 := h2.trans (by decide +kernel)
  obtain ⟨r, rfl⟩ := List.length_eq_one_iff.mp h2'
  refine ⟨c, r, hc, by rw [h1]; rfl, fun hd => ?_⟩
  have ht : ofType 16 demoAir[0] = true := by decide +kernel
  obtain ⟨-, -, hm⟩ := h3 0 demoAir[0] r (by decide +kernel) rfl
  obtain ⟨x, -, e1⟩ := hm.1 ht
  obtain ⟨y, -, e2⟩ := hd.1 ht
  rw [e1] at e2
  injection e2 with e2
  injection e2 with e2
  injection e2 with e2
  iterate 8 injection e2 with _ e2
  injection e2 with e2
  exact absurd e2 (by decide +kernel)

/-- A packet of a link manager with 32 octets. -/
def demoLong : List Nat := [52, 0x33, 0x22, 0x11, 0xCC, 0xBB, 0xAA, 6, 5, 4, 3, 2, 1] ++ List.replicate 32 7

/-- C85: a packet of a link manager of 32 octets is not found in its record. -/
theorem C85_long_violated : ∃ l, ofType 52 l = true ∧ l.length = 45 ∧ ∃ c r, Capture.start.receive (fun _ => 0) [l] = some c ∧
    (readFile c.file).map (·.2) = some [r] ∧ ∀ v pl, parse dm1 (r.data.map (·.toNat)) = some (v, pl) → pl ≠ l.drop 13 := by
  have hk : (match Capture.start.receive (fun _ => 0) [demoLong] with
    | none => false
    | some c => match readFile c.file with
      | some (_, [r]) => (parse dm1 (r.data.map (·.toNat))).map (·.2) == some []
      | _ => false) = true := by decide +kernel
  refine ⟨demoLong, by decide +kernel, by decide +kernel, ?_⟩
  split at hk
  · cases hk
  · rename_i c hc
    split at hk
    · rename_i t r hr
      refine ⟨c, r, hc, by rw [hr]; rfl, fun v pl hp => ?_⟩
      rw [hp] at hk
      have : pl = [] := by simpa using hk
      subst this
      decide +kernel
    · cases hk

/-- C85: a page that has been cut off ends the process. -/
theorem C85_page_violated : ∃ l, ofType 16 l = true ∧ ∀ clock c, Capture.receive clock c [l] = none := by
  refine ⟨(demoAir[0]).take 16, by decide +kernel, fun clock c => ?_⟩
  have h : recordOf ((demoAir[0]).take 16) = none := by decide +kernel
  simp only [Capture.receive, h]

/-! ### C86: specification -/

/-- The time of the last transmission of a history; at first that of the epoch of the clock. -/
def lastSent (log : List (Beat × Option (List Nat))) : Int := log.foldl (fun t e => match e with
  | (.tick now, some _) => now
  | _ => t) 0

/-- The address that a beacon has after a history. -/
def addressNow (a : Nat) (log : List (Beat × Option (List Nat))) : Nat := log.foldl (fun t e => match e.1 with
  | .address a => a
  | _ => t) a

/-- The elements of advertising data (Core Vol 3 Part C 11): type and content; what follows an element of length 0 is padding.
The first number bounds their number. -/
def elements : Nat → List Nat → Option (List (Nat × List Nat))
  | 0, _ => none
  | _, [] => some []
  | n + 1, len :: r =>
    if len = 0 then some []
    else if r.length < len then none
    else (elements n (r.drop len)).map (fun es => (r.headD 0, (r.take len).tail) :: es)

/-! ### C86: proofs -/

theorem legacy_declared : legacyPdu ∈ Pdl.declared := by
  refine List.mem_flatten.mpr ⟨Pdl.LinkLayer.packetsLinkLayerPacket, by simp [Pdl.families], ?_⟩
  simp [legacyPdu, Pdl.LinkLayer.packetsLinkLayerPacket, Pdl.LinkLayer.packetsLinkLayerPacket0]

/-- The data of a beacon. -/
def beaconData : List Nat := (Beacon.new 0 0).advData

theorem legacy_legal (a : Nat) (ha : a < 2 ^ 48) :
    legacyPdu.legal ((11, a, 0, ()), (0, 0, 3, octetValues beaconData, ()), ()) [] = true := by
  have hb : ∀ n, Pdl.fits Pdl.LinkLayer.bodyLeLegacyAdvertisingPdu (0, 0, 3, octetValues beaconData, ()) n = true := fun _ => by rfl
  simp only [Packet.legal, legacyPdu, Pdl.fitsAll, hb, Pdl.fits, Pdl.LinkLayer.bodyLinkLayerPacket]
  simp only [decide_eq_true ha]
  rfl

theorem address_lt (log : List (Beat × Option (List Nat))) : ∀ a, a < 2 ^ 48 → (∀ e ∈ log, ∀ x, e.1 = .address x → x < 2 ^ 48) →
    addressNow a log < 2 ^ 48 := by
  induction log with
  | nil => intro a ha _; exact ha
  | cons e log ih =>
    intro a ha h
    simp only [List.mem_cons, forall_eq_or_imp] at h
    simp only [addressNow, List.foldl_cons]
    apply ih
    · obtain ⟨x, o⟩ := e
      cases x with
      | address x => exact h.1 x rfl
      | _ => exact ha
    · exact h.2

theorem run_events (xs : List Beat) : ∀ b : Beacon, (b.run xs).map (·.1) = xs := by
  induction xs with
  | nil => intro b; rfl
  | cons x xs ih => intro b; simp [Beacon.run, ih]

/-- What does not change: only the address and the time do. -/
theorem step_kept (b : Beacon) (x : Beat) : (b.step x).1.type = b.type ∧ (b.step x).1.advData = b.advData
    ∧ (b.step x).1.interval = b.interval := by
  cases x with
  | tick now => simp only [Beacon.step, Beacon.tick]; split <;> exact ⟨rfl, rfl, rfl⟩
  | receive t s d => exact ⟨rfl, rfl, rfl⟩
  | address a => exact ⟨rfl, rfl, rfl⟩

/-- The state after a part of a history, told by what was sent. -/
theorem run_split (xs : List Beat) : ∀ (b : Beacon) (j : Nat) (x : Beat) (o : Option (List Nat)), (b.run xs)[j]? = some (x, o) →
    ∃ b' : Beacon, o = (b'.step x).2 ∧ b'.type = b.type ∧ b'.advData = b.advData ∧ b'.interval = b.interval ∧
      b'.last = ((b.run xs).take j).foldl (fun t e => match e with | (.tick now, some _) => now | _ => t) b.last ∧
      b'.address = addressNow b.address ((b.run xs).take j) := by
  induction xs with
  | nil => intro b j x o h; simp [Beacon.run] at h
  | cons y ys ih =>
    intro b j x o h
    cases j with
    | zero =>
      simp only [Beacon.run, List.getElem?_cons_zero, Option.some.injEq, Prod.mk.injEq] at h
      obtain ⟨rfl, rfl⟩ := h
      exact ⟨b, rfl, rfl, rfl, rfl, rfl, rfl⟩
    | succ j =>
      simp only [Beacon.run, List.getElem?_cons_succ] at h
      obtain ⟨b', h1, h2, h3, h4, h5, h6⟩ := ih _ j x o h
      obtain ⟨k1, k2, k3⟩ := step_kept b y
      refine ⟨b', h1, h2.trans k1, h3.trans k2, h4.trans k3, h5.trans ?_, h6.trans ?_⟩
      · simp only [Beacon.run, List.take_succ_cons, List.foldl_cons]
        congr 1
        cases y with
        | tick now => simp only [Beacon.step, Beacon.tick]; split <;> rfl
        | receive t s d => simp only [Beacon.step, Beacon.receive]
        | address a => rfl
      · simp only [Beacon.run, List.take_succ_cons, addressNow, List.foldl_cons]
        congr 1
        cases y with
        | tick now => simp only [Beacon.step, Beacon.tick]; split <;> rfl
        | receive t s d => rfl
        | address a => rfl

/-! ### C86: the beacon -/

/-- C86. A beacon transmits at a tick exactly if as much time as its interval has passed since it last transmitted. -/
theorem C86_when (address : Nat) (ms : Int) (xs : List Beat) (j : Nat) (now : Int) (o : Option (List Nat))
    (h : ((Beacon.new address ms).run xs)[j]? = some (.tick now, o)) :
    o.isSome = true ↔ now - lastSent (((Beacon.new address ms).run xs).take j) ≥ ms * 1000000 := by
  obtain ⟨b, rfl, -, -, h4, h5, -⟩ := run_split xs _ j _ _ h
  have e : b.last = lastSent (((Beacon.new address ms).run xs).take j) := h5
  have e' : b.interval = ms * 1000000 := h4
  rw [← e, ← e']
  simp only [Beacon.step, Beacon.tick]
  split <;> simp_all

/-- C86: what it transmits at a tick is a non-connectable undirected advertisement (type 3) with its address, whose data are 31
octets: the complete name `gDevice-beacon` and the flags of a device that is discoverable and has no BR/EDR. -/
theorem C86_what (address : Nat) (ms : Int) (xs : List Beat) (ha : address < 2 ^ 48) (hx : ∀ a, Beat.address a ∈ xs → a < 2 ^ 48)
    (j : Nat) (now : Int) (l : List Nat) (h : ((Beacon.new address ms).run xs)[j]? = some (.tick now, some l)) :
    ∃ data : List Nat, parse legacyPdu l = some (((11, addressNow address (((Beacon.new address ms).run xs).take j), 0, ()),
        (0, 0, 3, data.map (fun x => (x, ())), ()), ()), []) ∧
      data.length = 31 ∧ elements 31 data = some [(9, "gDevice-beacon".toList.map Char.toNat), (1, [6])] := by
  obtain ⟨b, h1, h2, h3, -, -, h6⟩ := run_split xs _ j _ _ h
  refine ⟨beaconData, ?_, by decide +kernel, by decide +kernel⟩
  have e1 : b.type = 3 := h2
  have e2 : b.advData = beaconData := h3
  have e3 : b.address = addressNow address (((Beacon.new address ms).run xs).take j) := h6
  rw [← e3]
  have hlt : b.address < 2 ^ 48 := by
    rw [e3]
    apply address_lt _ _ ha
    intro e he x hx'
    refine hx x ?_
    have := List.mem_map_of_mem (f := (·.1)) (List.mem_of_mem_take he)
    rw [run_events, hx'] at this
    exact this
  simp only [Beacon.step, Beacon.tick] at h1
  split at h1
  · injection h1 with h1
    rw [h1, e1, e2]
    exact Pdl.C80_read legacyPdu legacy_declared _ _ (legacy_legal _ hlt)
  · cases h1

/-- C86, the answers to scan requests promised in beacon.h:31: there are none, whatever happens. -/
theorem C86_scan_violated (address : Nat) (ms : Int) (xs : List Beat) (j : Nat) (t s d : Nat) (o : Option (List Nat))
    (h : ((Beacon.new address ms).run xs)[j]? = some (.receive t s d, o)) : o = none := by
  obtain ⟨b, rfl, h2, -⟩ := run_split xs _ j _ _ h
  have e1 : b.type = 3 := h2
  simp only [Beacon.step, Beacon.receive, e1]
  rw [if_neg]
  rintro ⟨-, -, h | h⟩ <;> cases h

/-- A beacon with an interval of one second, over some seconds of ticks. -/
def demoBeats : List Beat :=
  [.tick 5000000000, .tick 5500000000, .receive 14 7 0xAABBCC, .tick 6000000000, .address 9, .tick 7100000000, .tick 8099999999]

example : ((Beacon.new 0xAABBCC 1000).run demoBeats).map (·.2.isSome) = [true, false, false, true, false, true, false] := by decide +kernel

example : ((Beacon.new 0xAABBCC 1000).run demoBeats)[2]? = some (.receive 14 7 0xAABBCC, none) := by decide +kernel

end Verif.Port
