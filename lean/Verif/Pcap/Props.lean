import Verif.Pcap.Lemmas
/-!
# Properties C13, C14: the PCAP filter
-/

namespace Verif.Pcap

theorem uint8_and_toNat (x : UInt8) : (x &&& 0x3f).toNat = x.toNat % 64 := by
  rw [UInt8.toNat_and]
  exact Nat.and_two_pow_sub_one_eq_mod x.toNat 6

theorem filterPacket_spec {m m' : Names} {p q : Bytes} {idc : UInt8} (hg : Good m) (hf : Framed idc p)
    (h : filterPacket m p idc = some (m', q)) : Good m' ∧ q.length = p.length := by
  unfold filterPacket at h
  split at h
  · rename_i hi; subst hi
    unfold filterCommand at h
    split at h
    · rename_i o0 o1 s rest
      simp only [Framed] at hf
      split at h
      · cases h
      · split at h
        · simp only [Option.some.injEq, Prod.mk.injEq] at h
          obtain ⟨rfl, rfl⟩ := h
          exact ⟨hg, rfl⟩
        · rename_i f hcf
          split at h
          · cases h
          · rename_i r hr
            simp only [Option.some.injEq, Prod.mk.injEq] at h
            obtain ⟨rfl, rfl⟩ := h
            obtain ⟨h1, h2⟩ := commandFilter_spec hcf hg hr
            refine ⟨h1, ?_⟩
            simp only [List.length_cons, h2, List.length_take]
            omega
    · cases h
  split at h
  · rename_i hi; subst hi
    rw [Option.map_eq_some_iff] at h
    obtain ⟨x, hx, h⟩ := h
    simp only [Prod.mk.injEq] at h
    obtain ⟨rfl, rfl⟩ := h
    refine ⟨hg, ?_⟩
    unfold filterAcl at hx
    split at hx
    · simp only [Framed] at hf
      simp only at hx
      split at hx
      · cases hx
      · simp only [Option.some.injEq] at hx
        subst hx
        simp [hf]
    · cases hx
  split at h
  · rename_i hi; subst hi
    rw [Option.map_eq_some_iff] at h
    obtain ⟨x, hx, h⟩ := h
    simp only [Prod.mk.injEq] at h
    obtain ⟨rfl, rfl⟩ := h
    refine ⟨hg, ?_⟩
    unfold filterSco at hx
    split at hx
    · simp only [Framed] at hf
      split at hx
      · cases hx
      · simp only [Option.some.injEq] at hx
        subst hx
        simp [hf]
    · cases hx
  split at h
  · rename_i hi; subst hi
    unfold filterEvent at h
    split at h
    · rename_i c s rest
      simp only [Framed] at hf
      split at h
      · cases h
      · split at h
        · simp only [Option.some.injEq, Prod.mk.injEq] at h
          obtain ⟨rfl, rfl⟩ := h
          exact ⟨hg, rfl⟩
        · cases h
        · rename_i r hr
          simp only [Option.some.injEq, Prod.mk.injEq] at h
          obtain ⟨rfl, rfl⟩ := h
          obtain ⟨h1, h2⟩ := eventParams_spec hg hr
          refine ⟨h1, ?_⟩
          simp only [List.length_cons, h2, List.length_take]
          omega
    · cases h
  split at h
  · rename_i hi; subst hi
    rw [Option.map_eq_some_iff] at h
    obtain ⟨x, hx, h⟩ := h
    simp only [Prod.mk.injEq] at h
    obtain ⟨rfl, rfl⟩ := h
    refine ⟨hg, ?_⟩
    unfold filterIso at hx
    split at hx
    · simp only [Framed] at hf
      simp only at hx
      split at hx
      · cases hx
      · simp only [Option.some.injEq] at hx
        subst hx
        simp only [List.length_cons, List.length_replicate, uint8_and_toNat]
        omega
    · cases hx
  · simp only [Option.some.injEq, Prod.mk.injEq] at h
    obtain ⟨rfl, rfl⟩ := h
    exact ⟨hg, rfl⟩

theorem session_spec (ps : List (Bytes × UInt8)) : ∀ {m m' : Names} {qs : List Bytes}, Good m →
    (∀ e ∈ ps, Framed e.2 e.1) → session m ps = some (m', qs) →
    Good m' ∧ qs.map List.length = ps.map (fun e => e.1.length) := by
  induction ps with
  | nil =>
    intro m m' qs hg _ h
    simp only [session, Option.some.injEq, Prod.mk.injEq] at h
    obtain ⟨rfl, rfl⟩ := h
    exact ⟨hg, rfl⟩
  | cons e ps ih =>
    intro m m' qs hg hf h
    obtain ⟨p, idc⟩ := e
    simp only [session] at h
    split at h
    · cases h
    · rename_i m1 q hq
      obtain ⟨h1, h2⟩ := filterPacket_spec hg (hf (p, idc) (by simp)) hq
      split at h
      · cases h
      · rename_i m2 qs' hs
        simp only [Option.some.injEq, Prod.mk.injEq] at h
        obtain ⟨rfl, rfl⟩ := h
        obtain ⟨h3, h4⟩ := ih h1 (fun e he => hf e (by simp [he])) hs
        exact ⟨h3, by simp [h2, h4]⟩

/-- **C13.** In any session of framed packets, every filtered packet has the length of the original. -/
theorem C13_length (ps : List (Bytes × UInt8)) (hf : ∀ e ∈ ps, Framed e.2 e.1) (m : Names) (qs : List Bytes)
    (h : session [] ps = some (m, qs)) : qs.map List.length = ps.map (fun e => e.1.length) :=
  (session_spec ps good_nil hf h).2

/-- A Write Local Name command, an LE Set Advertising Data command with a name, an ACL packet. -/
def demoSession : List (Bytes × UInt8) :=
  [([0x13, 0x0C, 248] ++ [0x4A, 0x6F, 0x65] ++ List.replicate 245 0, 1),
   ([0x08, 0x20, 32, 9] ++ [2, 1, 6, 5, 9, 0x4A, 0x6F, 0x65, 0x79] ++ List.replicate 22 0, 1),
   ([0x01, 0x20, 3, 0, 7, 8, 9], 2)]

example : (∀ e ∈ demoSession, Framed e.2 e.1) ∧ ∃ m qs, session [] demoSession = some (m, qs) ∧
    qs.getLast? = some [0x01, 0x20, 3, 0, 0, 0, 0] := by
  refine ⟨?_, ((session [] demoSession).get (by decide +kernel)).1, ((session [] demoSession).get (by decide +kernel)).2,
    by simp, by decide +kernel⟩
  intro e he
  simp only [demoSession, List.mem_cons, List.not_mem_nil, or_false] at he
  rcases he with rfl | rfl | rfl
  · exact (by decide +kernel : ([0x4A, 0x6F, 0x65] ++ List.replicate 245 0 : Bytes).length = (248 : UInt8).toNat)
  · exact (by decide +kernel :
      ([9] ++ [2, 1, 6, 5, 9, 0x4A, 0x6F, 0x65, 0x79] ++ List.replicate 22 0 : Bytes).length = (32 : UInt8).toNat)
  · exact (by decide +kernel : ([7, 8, 9] : Bytes).length = (3 : UInt8).toNat + 256 * (0 : UInt8).toNat)

/-- **C13.** The payload of a framed ACL packet becomes all zero and the header is unchanged. -/
theorem C13_acl (m : Names) (h0 h1 s0 s1 : UInt8) (payload : Bytes)
    (hf : payload.length = s0.toNat + 256 * s1.toNat) :
    filterPacket m (h0 :: h1 :: s0 :: s1 :: payload) 2 =
      some (m, h0 :: h1 :: s0 :: s1 :: List.replicate payload.length 0) := by
  simp [filterPacket, filterAcl, ← hf]

/-- **C13.** The payload of a framed SCO packet becomes all zero; the header is unchanged when its two reserved bits
are zero, as the specification requires. -/
theorem C13_sco (m : Names) (h0 h1 s : UInt8) (payload : Bytes) (hf : payload.length = s.toNat)
    (hr : h1.toNat < 64) :
    filterPacket m (h0 :: h1 :: s :: payload) 3 = some (m, h0 :: h1 :: s :: List.replicate payload.length 0) := by
  have : h1 &&& 0x3f = h1 := by
    apply UInt8.toNat_inj.mp
    rw [uint8_and_toNat]; omega
  simp [filterPacket, filterSco, ← hf, this]

/-- **C13.** The payload of a framed ISO packet becomes all zero; the header is unchanged when its reserved bits are
zero, as the specification requires. -/
theorem C13_iso (m : Names) (h0 h1 s0 s1 : UInt8) (payload : Bytes)
    (hf : payload.length = s0.toNat + 256 * s1.toNat) (hr : h1.toNat < 128) (hs : s1.toNat < 64) :
    filterPacket m (h0 :: h1 :: s0 :: s1 :: payload) 5 =
      some (m, h0 :: h1 :: s0 :: s1 :: List.replicate payload.length 0) := by
  have e1 : h1 &&& 0x7f = h1 := by
    apply UInt8.toNat_inj.mp
    rw [UInt8.toNat_and]
    show h1.toNat &&& 127 = _
    rw [Nat.and_two_pow_sub_one_eq_mod h1.toNat 7]; omega
  have e2 : s1 &&& 0x3f = s1 := by
    apply UInt8.toNat_inj.mp
    rw [uint8_and_toNat]; omega
  simp [filterPacket, filterIso, ← hf, e1, e2]

example : filterPacket [] [0x01, 0x20, 2, 0, 0xAA, 0xBB] 5 = some ([], [0x01, 0x20, 2, 0, 0, 0]) := by
  decide +kernel

/-- **C13.** The whole 248 byte name of a Write Local Name command is replaced by a pseudonym. -/
theorem C13_write_local_name (m : Names) (hg : Good m) (name : Bytes) (hn : name.length = 248) :
    ∃ m' i b, filterPacket m (0x13 :: 0x0C :: 248 :: name) 1 =
      some (m', 0x13 :: 0x0C :: 248 :: generateName i 248 b) := by
  obtain ⟨_, _, _, i, b, _, h⟩ := changeName_spec hg name false
  refine ⟨(changeName m name false).1, i, b, ?_⟩
  have h248 : (248 : UInt8).toNat = 248 := rfl
  have hop : (0x13 : UInt8).toNat + 256 * (0x0C : UInt8).toNat = WRITE_LOCAL_NAME := rfl
  have ht : name.take 248 = name := by rw [List.take_of_length_le (by omega)]
  rw [hn] at h
  unfold filterPacket
  rw [if_pos rfl]
  unfold filterCommand
  simp only [h248, hn, hop, ht]
  rw [if_neg (by omega)]
  unfold commandFilter
  rw [if_pos rfl]
  simp only [nameAt, hn, List.drop_zero, List.take_zero, List.nil_append, h, if_true, Nat.zero_add]

/-- **C13.** The whole 248 byte name of a successful Remote Name Request Complete event is replaced by a pseudonym;
the address is unchanged. -/
theorem C13_remote_name (m : Names) (hg : Good m) (addr name : Bytes) (ha : addr.length = 6)
    (hn : name.length = 248) :
    ∃ m' i b, filterPacket m (0x07 :: 255 :: 0 :: (addr ++ name)) 4 =
      some (m', 0x07 :: 255 :: 0 :: (addr ++ generateName i 248 b)) := by
  obtain ⟨_, _, _, i, b, _, h⟩ := changeName_spec hg name false
  refine ⟨(changeName m name false).1, i, b, ?_⟩
  have h255 : (255 : UInt8).toNat = 255 := rfl
  have ht : (0 :: (addr ++ name)).take 255 = 0 :: (addr ++ name) := by
    rw [List.take_of_length_le (by simp [ha, hn])]
  have hd : (0 :: (addr ++ name)).drop 7 = name := by
    rw [List.drop_succ_cons, List.drop_left' ha]
  have htk : (0 :: (addr ++ name)).take 7 = 0 :: addr := by
    rw [List.take_succ_cons, List.take_left' ha]
  rw [hn] at h
  unfold filterPacket
  rw [if_neg (by decide), if_neg (by decide), if_neg (by decide), if_pos rfl]
  unfold filterEvent
  simp only [h255, ht]
  rw [if_neg (by simp [ha, hn])]
  unfold eventParams
  rw [if_neg (by decide), if_neg (by decide), if_pos rfl]
  unfold remoteName
  rw [if_pos (by simp [ha, hn]), if_pos (by rfl)]
  unfold nameAt
  rw [if_pos (by simp [ha, hn]), hd, htk]
  simp only [h, List.cons_append]

/-- **C13.** In an LE Set Advertising Data or LE Set Scan Response Data command the GAP data is filtered (see
`C13_gap_partial`), the other octets are unchanged (the padding is zero as the specification requires). -/
theorem C13_set_advertising_data (m : Names) (op : UInt8) (hop : op = 0x08 ∨ op = 0x09) (s : UInt8)
    (data : Bytes) (hs : data.length = s.toNat) (h31 : s.toNat ≤ 31) :
    filterPacket m (op :: 0x20 :: 32 :: s :: (data ++ List.replicate (31 - s.toNat) 0)) 1 =
      some ((filterGap m data).1,
        op :: 0x20 :: 32 :: s :: ((filterGap m data).2 ++ List.replicate (31 - s.toNat) 0)) := by
  have h32 : (32 : UInt8).toNat = 32 := rfl
  have hl : (data ++ List.replicate (31 - s.toNat) (0 : UInt8)).length = 31 := by
    rw [List.length_append, List.length_replicate]; omega
  have htake : (s :: (data ++ List.replicate (31 - s.toNat) (0 : UInt8))).take 32 =
      s :: (data ++ List.replicate (31 - s.toNat) (0 : UInt8)) := by
    rw [List.take_of_length_le (by rw [List.length_cons, hl])]
  have hcf : commandFilter (op.toNat + 256 * 32) = some advData := by
    rcases hop with rfl | rfl <;>
      simp [commandFilter, WRITE_LOCAL_NAME, WRITE_EXTENDED_INQUIRY_RESPONSE, LE_SET_ADVERTISING_DATA,
        LE_SET_SCAN_RESPONSE_DATA]
  unfold filterPacket
  rw [if_pos rfl]
  unfold filterCommand
  simp only [h32, htake, hcf]
  rw [if_neg (by rw [List.length_cons, hl]; omega)]
  unfold advData
  simp only [hl]
  rw [if_pos (by omega), List.take_left' hs]
  simp only [List.cons_append]

/-- One response of an LE Advertising Report. -/
structure Report where
  header : Bytes
  data : Bytes
  rssi : UInt8

/-- Layout of a response: event type, address type, address, data length, data, RSSI. -/
def Report.encode (r : Report) : Bytes := r.header ++ UInt8.ofNat r.data.length :: (r.data ++ [r.rssi])

theorem reports_encode (rs : List Report) : ∀ (m : Names), Good m →
    (∀ r ∈ rs, r.header.length = 8 ∧ r.data.length ≤ 255) →
    ∃ m' rs', reports 8 1 id rs.length m (rs.flatMap Report.encode) = some (m', rs'.flatMap Report.encode) ∧
      List.Forall₂ (fun r r' : Report => r'.header = r.header ∧ r'.rssi = r.rssi ∧
        ∃ n, Good n ∧ r'.data = (filterGap n r.data).2) rs rs' := by
  induction rs with
  | nil => intro m _ _; exact ⟨m, [], rfl, List.Forall₂.nil⟩
  | cons r rs ih =>
    intro m hg hv
    obtain ⟨hh, hd⟩ := hv r (by simp)
    have hs : (UInt8.ofNat r.data.length).toNat = r.data.length := by
      rw [UInt8.toNat_ofNat']; omega
    obtain ⟨g1, g2⟩ := filterGap_length hg r.data
    obtain ⟨m', rs', h1, h2⟩ := ih (filterGap m r.data).1 g1 (fun r hr => hv r (by simp [hr]))
    refine ⟨m', ⟨r.header, (filterGap m r.data).2, r.rssi⟩ :: rs', ?_, List.Forall₂.cons ⟨rfl, rfl, m, hg, rfl⟩ h2⟩
    have e1 : ((r :: rs).flatMap Report.encode).drop 8 =
        UInt8.ofNat r.data.length :: (r.data ++ (r.rssi :: rs.flatMap Report.encode)) := by
      simp only [List.flatMap_cons, Report.encode, List.append_assoc]
      rw [List.drop_left' hh]
      simp
    have e2 : ((r :: rs).flatMap Report.encode).take 8 = r.header := by
      simp only [List.flatMap_cons, Report.encode, List.append_assoc]
      rw [List.take_left' hh]
    have e3 : (r.data ++ (r.rssi :: rs.flatMap Report.encode)).drop (r.data.length + 1) = rs.flatMap Report.encode := by
      rw [← List.drop_drop, List.drop_left]; rfl
    have e4 : ((r.data ++ (r.rssi :: rs.flatMap Report.encode)).drop r.data.length).take 1 = [r.rssi] := by
      rw [List.drop_left]; rfl
    rw [List.length_cons, reports, e1]
    simp only [hs, e2, e3, e4, List.take_left, h1]
    rw [if_neg (by rw [List.length_append, List.length_cons]; omega)]
    simp [Report.encode, g2]

/-- **C13.** In an LE Advertising Report with any number of responses, the GAP data of every response is filtered
(see `C13_gap_partial`) and every other octet is unchanged. -/
theorem C13_advertising_report (m : Names) (hg : Good m) (rs : List Report) (hn : rs.length ≤ 255)
    (hv : ∀ r ∈ rs, r.header.length = 8 ∧ r.data.length ≤ 255)
    (hlen : (rs.flatMap Report.encode).length + 2 ≤ 255) :
    let s := UInt8.ofNat ((rs.flatMap Report.encode).length + 2)
    let n := UInt8.ofNat rs.length
    ∃ m' rs', filterPacket m (0x3E :: s :: 0x02 :: n :: rs.flatMap Report.encode) 4 =
      some (m', 0x3E :: s :: 0x02 :: n :: rs'.flatMap Report.encode) ∧
      List.Forall₂ (fun r r' : Report => r'.header = r.header ∧ r'.rssi = r.rssi ∧
        ∃ n, Good n ∧ r'.data = (filterGap n r.data).2) rs rs' := by
  intro s n
  obtain ⟨m', rs', h1, h2⟩ := reports_encode rs m hg hv
  refine ⟨m', rs', ?_, h2⟩
  have hs : s.toNat = (rs.flatMap Report.encode).length + 2 := by
    show (UInt8.ofNat _).toNat = _
    rw [UInt8.toNat_ofNat']; omega
  have hn' : n.toNat = rs.length := by
    show (UInt8.ofNat _).toNat = _
    rw [UInt8.toNat_ofNat']; omega
  unfold filterPacket
  rw [if_neg (by decide), if_neg (by decide), if_neg (by decide), if_pos rfl]
  unfold filterEvent
  simp only [hs]
  rw [if_neg (by simp), List.take_of_length_le (by simp)]
  unfold eventParams
  rw [if_pos rfl]
  simp only [hn', h1, Option.map_some]

example : filterPacket [] [0x3E, 0x11, 0x02, 1, 0, 0, 1, 2, 3, 4, 5, 6, 5, 4, 9, 0x4A, 0x6F, 0x65, 0xC4] 4 =
    some ([([9, 0x4A, 0x6F], [0x23, 0x30, 0x30])],
      [0x3E, 0x11, 0x02, 1, 0, 0, 1, 2, 3, 4, 5, 6, 5, 4, 0x23, 0x30, 0x30, 0x65, 0xC4]) := by decide +kernel

/-! ## The other packets that carry names -/

theorem filter_command (m : Names) (o0 o1 s : UInt8) (ps : Bytes) (f : Names → Bytes → Result)
    (hf : commandFilter (o0.toNat + 256 * o1.toNat) = some f) (hs : ps.length = s.toNat) (r : Names × Bytes)
    (hr : f m ps = some r) : filterPacket m (o0 :: o1 :: s :: ps) 1 = some (r.1, o0 :: o1 :: s :: r.2) := by
  unfold filterPacket
  rw [if_pos rfl]
  unfold filterCommand
  simp only [hf]
  rw [if_neg (by omega), List.take_of_length_le (by omega), hr]

theorem filter_event (m : Names) (c s : UInt8) (ps : Bytes) (hs : ps.length = s.toNat) (r : Names × Bytes)
    (hr : eventParams m c ps = some (some r)) :
    filterPacket m (c :: s :: ps) 4 = some (r.1, c :: s :: r.2) := by
  unfold filterPacket
  rw [if_neg (by decide), if_neg (by decide), if_neg (by decide), if_pos rfl]
  unfold filterEvent
  simp only
  rw [if_neg (by omega), List.take_of_length_le (by omega), hr]

/-- **C13.** In an LE Set Extended Advertising Data or LE Set Extended Scan Response Data command the GAP data is
filtered, handle, operation, fragment preference and length are kept. -/
theorem C13_set_extended_data (m : Names) (op : UInt8) (hop : op = 0x37 ∨ op = 0x38) (s h o f l : UInt8)
    (data : Bytes) (hs : data.length + 4 = s.toNat) (hl : data.length = l.toNat) (ho : o < 8) (hf : f < 2) :
    filterPacket m (op :: 0x20 :: s :: h :: o :: f :: l :: data) 1 =
      some ((filterGap m data).1, op :: 0x20 :: s :: h :: o :: f :: l :: (filterGap m data).2) := by
  have hcf : commandFilter (op.toNat + 256 * 32) = some extAdvData := by
    rcases hop with rfl | rfl <;>
      simp [commandFilter, WRITE_LOCAL_NAME, WRITE_EXTENDED_INQUIRY_RESPONSE, LE_SET_ADVERTISING_DATA,
        LE_SET_SCAN_RESPONSE_DATA, LE_SET_EXTENDED_ADVERTISING_DATA, LE_SET_EXTENDED_SCAN_RESPONSE_DATA]
  have ho' : o &&& 7 = o := by
    have : ∀ n : Fin 256, UInt8.ofNat n < 8 → UInt8.ofNat n &&& 7 = UInt8.ofNat n := by decide +kernel
    have h := this ⟨o.toNat, o.toNat_lt⟩
    rw [UInt8.ofNat_toNat] at h
    exact h ho
  have hf' : f &&& 1 = f := by
    have : ∀ n : Fin 256, UInt8.ofNat n < 2 → UInt8.ofNat n &&& 1 = UInt8.ofNat n := by decide +kernel
    have h := this ⟨f.toNat, f.toNat_lt⟩
    rw [UInt8.ofNat_toNat] at h
    exact h hf
  refine filter_command m op 0x20 s (h :: o :: f :: l :: data) extAdvData hcf (by simp; omega)
    ((filterGap m data).1, h :: o :: f :: l :: (filterGap m data).2) ?_
  simp only [extAdvData]
  rw [if_pos hl, ho', hf']

example : filterPacket [] [0x37, 0x20, 9, 1, 3, 1, 5, 4, 9, 0x4A, 0x6F, 0x65] 1 =
    some ([([9, 0x4A, 0x6F], [0x23, 0x30, 0x30])],
      [0x37, 0x20, 9, 1, 3, 1, 5, 4, 0x23, 0x30, 0x30, 0x65]) := by decide +kernel

/-- **C13.** In an LE Set Periodic Advertising Data command the GAP data is filtered, the rest is kept. -/
theorem C13_set_periodic_data (m : Names) (s h o l : UInt8)
    (data : Bytes) (hs : data.length + 3 = s.toNat) (hl : data.length = l.toNat) (ho : o < 8) :
    filterPacket m (0x3F :: 0x20 :: s :: h :: o :: l :: data) 1 =
      some ((filterGap m data).1, 0x3F :: 0x20 :: s :: h :: o :: l :: (filterGap m data).2) := by
  have hcf : commandFilter ((0x3F : UInt8).toNat + 256 * 32) = some perAdvData := by
    simp [commandFilter, WRITE_LOCAL_NAME, WRITE_EXTENDED_INQUIRY_RESPONSE, LE_SET_ADVERTISING_DATA,
        LE_SET_SCAN_RESPONSE_DATA, LE_SET_EXTENDED_ADVERTISING_DATA, LE_SET_EXTENDED_SCAN_RESPONSE_DATA,
        LE_SET_PERIODIC_ADVERTISING_DATA]
  have ho' : o &&& 7 = o := by
    have : ∀ n : Fin 256, UInt8.ofNat n < 8 → UInt8.ofNat n &&& 7 = UInt8.ofNat n := by decide +kernel
    have h := this ⟨o.toNat, o.toNat_lt⟩
    rw [UInt8.ofNat_toNat] at h
    exact h ho
  refine filter_command m 0x3F 0x20 s (h :: o :: l :: data) perAdvData hcf (by simp; omega)
    ((filterGap m data).1, h :: o :: l :: (filterGap m data).2) ?_
  simp only [perAdvData]
  rw [if_pos hl, ho']

example : filterPacket [] [0x3F, 0x20, 8, 1, 3, 5, 4, 9, 0x4A, 0x6F, 0x65] 1 =
    some ([([9, 0x4A, 0x6F], [0x23, 0x30, 0x30])],
      [0x3F, 0x20, 8, 1, 3, 5, 4, 0x23, 0x30, 0x30, 0x65]) := by decide +kernel

/-- **C13.** In a Write Extended Inquiry Response command the GAP data is filtered. -/
theorem C13_write_eir (m : Names) (fec : UInt8) (data : Bytes) (hd : data.length = 240) :
    filterPacket m (0x52 :: 0x0C :: 241 :: fec :: data) 1 =
      some ((filterGap m data).1, 0x52 :: 0x0C :: 241 :: fec :: (filterGap m data).2) := by
  have hcf : commandFilter ((0x52 : UInt8).toNat + 256 * (0x0C : UInt8).toNat) = some (eirAt 1) := by
    simp [commandFilter, WRITE_LOCAL_NAME, WRITE_EXTENDED_INQUIRY_RESPONSE]
  refine filter_command m 0x52 0x0C 241 (fec :: data) (eirAt 1) hcf (by simp [hd])
    ((filterGap m data).1, fec :: (filterGap m data).2) ?_
  unfold eirAt
  rw [if_pos (by simp [hd])]
  rfl

/-- **C13.** In a successful Read Local Name command complete event the whole 248 byte name is replaced. -/
theorem C13_read_local_name (m : Names) (hg : Good m) (k : UInt8) (name : Bytes) (hn : name.length = 248) :
    ∃ m' i b, filterPacket m (0x0E :: 252 :: k :: 0x14 :: 0x0C :: 0 :: name) 4 =
      some (m', 0x0E :: 252 :: k :: 0x14 :: 0x0C :: 0 :: generateName i 248 b) := by
  obtain ⟨_, _, _, i, b, _, h⟩ := changeName_spec hg name false
  rw [hn] at h
  refine ⟨(changeName m name false).1, i, b, ?_⟩
  refine filter_event m 0x0E 252 (k :: 0x14 :: 0x0C :: 0 :: name) (by simp [hn])
    ((changeName m name false).1, k :: 0x14 :: 0x0C :: 0 :: generateName i 248 b) ?_
  unfold eventParams
  rw [if_neg (by decide), if_pos rfl]
  simp only
  rw [if_pos (by rfl)]
  unfold readLocalName
  rw [if_pos (by simp [hn]), if_pos (by rfl)]
  unfold nameAt
  rw [if_pos (by simp [hn])]
  simp [h]

/-- **C13.** In a successful Read Extended Inquiry Response command complete event the GAP data is filtered. -/
theorem C13_read_eir (m : Names) (k fec : UInt8) (data : Bytes) (hd : data.length = 240) :
    filterPacket m (0x0E :: 245 :: k :: 0x51 :: 0x0C :: 0 :: fec :: data) 4 =
      some ((filterGap m data).1, 0x0E :: 245 :: k :: 0x51 :: 0x0C :: 0 :: fec :: (filterGap m data).2) := by
  refine filter_event m 0x0E 245 (k :: 0x51 :: 0x0C :: 0 :: fec :: data) (by simp [hd])
    ((filterGap m data).1, k :: 0x51 :: 0x0C :: 0 :: fec :: (filterGap m data).2) ?_
  unfold eventParams
  rw [if_neg (by decide), if_pos rfl]
  simp only
  rw [if_neg (by decide), if_pos (by rfl)]
  unfold readEir
  rw [if_pos (by simp [hd]), if_pos (by rfl)]
  unfold eirAt
  rw [if_pos (by simp [hd])]
  simp

/-- **C13.** In an Extended Inquiry Result event the GAP data is filtered; address, class, clock offset and RSSI are
kept. The reserved octet and the reserved top bit of `c1` are zero. -/
theorem C13_inquiry_result (m : Names) (addr cod : Bytes) (mode c0 c1 rssi : UInt8)
    (data : Bytes) (ha : addr.length = 6) (hc : cod.length = 3) (hd : data.length = 240) (h1 : c1 < 0x80) :
    filterPacket m (0x2F :: 255 :: 1 :: (addr ++ (mode :: 0 :: (cod ++ (c0 :: c1 :: rssi :: data))))) 4 =
      some ((filterGap m data).1,
        0x2F :: 255 :: 1 :: (addr ++ (mode :: 0 :: (cod ++ (c0 :: c1 :: rssi :: (filterGap m data).2))))) := by
  have hc1 : c1 &&& 0x7f = c1 := by
    have : ∀ n : Fin 256, UInt8.ofNat n < 0x80 → UInt8.ofNat n &&& 0x7f = UInt8.ofNat n := by decide +kernel
    have h := this ⟨c1.toNat, c1.toNat_lt⟩
    rw [UInt8.ofNat_toNat] at h
    exact h h1
  obtain ⟨a0, a1, a2, a3, a4, a5, rfl⟩ : ∃ a0 a1 a2 a3 a4 a5, addr = [a0, a1, a2, a3, a4, a5] := by
    match addr, ha with
    | [a0, a1, a2, a3, a4, a5], _ => exact ⟨a0, a1, a2, a3, a4, a5, rfl⟩
  obtain ⟨b0, b1, b2, rfl⟩ : ∃ b0 b1 b2, cod = [b0, b1, b2] := by
    match cod, hc with
    | [b0, b1, b2], _ => exact ⟨b0, b1, b2, rfl⟩
  refine filter_event m 0x2F 255 (1 :: ([a0, a1, a2, a3, a4, a5] ++ (mode :: 0 :: ([b0, b1, b2] ++
    (c0 :: c1 :: rssi :: data))))) (by simp [hd]) ((filterGap m data).1, 1 :: ([a0, a1, a2, a3, a4, a5] ++
    (mode :: 0 :: ([b0, b1, b2] ++ (c0 :: c1 :: rssi :: (filterGap m data).2))))) ?_
  unfold eventParams
  rw [if_neg (by decide), if_neg (by decide), if_neg (by decide), if_pos rfl]
  unfold eirResult
  rw [if_pos ⟨by simp [hd], rfl⟩]
  unfold eirAt eirResultHeader
  rw [if_pos (by simp [hd])]
  simp [List.modify, List.modifyTailIdx, hc1, List.modifyTailIdx.go, List.modifyHead]

/-- One response of an LE Extended Advertising Report: the fixed part of 23 octets and the data. -/
structure ExtReport where
  header : Bytes
  data : Bytes

/-- Layout of a response. -/
def ExtReport.encode (r : ExtReport) : Bytes := r.header ++ UInt8.ofNat r.data.length :: r.data

/-- A response with its reserved bits clear: the event type has seven bits, followed by nine reserved ones. -/
def ExtReport.Valid (r : ExtReport) : Prop :=
  r.data.length ≤ 255 ∧ ∃ e rest, r.header = e :: 0 :: rest ∧ e < 0x80 ∧ rest.length = 21

theorem ext_reports_encode (rs : List ExtReport) : ∀ (m : Names), Good m → (∀ r ∈ rs, r.Valid) →
    ∃ m' rs', reports 23 0 extReportHeader rs.length m (rs.flatMap ExtReport.encode) =
        some (m', rs'.flatMap ExtReport.encode) ∧
      List.Forall₂ (fun r r' : ExtReport => r'.header = r.header ∧
        ∃ n, Good n ∧ r'.data = (filterGap n r.data).2) rs rs' := by
  induction rs with
  | nil => intro m _ _; exact ⟨m, [], rfl, List.Forall₂.nil⟩
  | cons r rs ih =>
    intro m hg hv
    obtain ⟨hd, e, hrest, hh, he, hlen⟩ := hv r (by simp)
    have he' : e &&& 0x7f = e := by
      have : ∀ n : Fin 256, UInt8.ofNat n < 0x80 → UInt8.ofNat n &&& 0x7f = UInt8.ofNat n := by decide +kernel
      have h := this ⟨e.toNat, e.toNat_lt⟩
      rw [UInt8.ofNat_toNat] at h
      exact h he
    have h23 : r.header.length = 23 := by rw [hh]; simp [hlen]
    have hhdr : extReportHeader r.header = r.header := by
      rw [hh]; simp [extReportHeader, List.modify, he']
    have hs : (UInt8.ofNat r.data.length).toNat = r.data.length := by
      rw [UInt8.toNat_ofNat']; omega
    obtain ⟨g1, g2⟩ := filterGap_length hg r.data
    obtain ⟨m', rs', h1, h2⟩ := ih (filterGap m r.data).1 g1 (fun r hr => hv r (by simp [hr]))
    refine ⟨m', ⟨r.header, (filterGap m r.data).2⟩ :: rs', ?_, List.Forall₂.cons ⟨rfl, m, hg, rfl⟩ h2⟩
    have e1 : ((r :: rs).flatMap ExtReport.encode).drop 23 =
        UInt8.ofNat r.data.length :: (r.data ++ rs.flatMap ExtReport.encode) := by
      simp only [List.flatMap_cons, ExtReport.encode, List.append_assoc]
      rw [List.drop_left' h23]
      simp
    have e2 : ((r :: rs).flatMap ExtReport.encode).take 23 = r.header := by
      simp only [List.flatMap_cons, ExtReport.encode, List.append_assoc]
      rw [List.take_left' h23]
    rw [List.length_cons, reports, e1]
    simp only [hs, e2, List.take_left, Nat.add_zero, List.drop_left, h1, hhdr]
    rw [if_neg (by rw [List.length_append]; omega)]
    simp [ExtReport.encode, g2]

/-- **C13.** In an LE Extended Advertising Report with any number of responses, the GAP data of every response is
filtered and every other octet is unchanged. -/
theorem C13_extended_report (m : Names) (hg : Good m) (rs : List ExtReport) (hn : rs.length ≤ 255)
    (hv : ∀ r ∈ rs, r.Valid) (hlen : (rs.flatMap ExtReport.encode).length + 2 ≤ 255) :
    let s := UInt8.ofNat ((rs.flatMap ExtReport.encode).length + 2)
    let n := UInt8.ofNat rs.length
    ∃ m' rs', filterPacket m (0x3E :: s :: 0x0D :: n :: rs.flatMap ExtReport.encode) 4 =
      some (m', 0x3E :: s :: 0x0D :: n :: rs'.flatMap ExtReport.encode) ∧
      List.Forall₂ (fun r r' : ExtReport => r'.header = r.header ∧
        ∃ n, Good n ∧ r'.data = (filterGap n r.data).2) rs rs' := by
  intro s n
  obtain ⟨m', rs', h1, h2⟩ := ext_reports_encode rs m hg hv
  have hs : s.toNat = (rs.flatMap ExtReport.encode).length + 2 := by
    show (UInt8.ofNat _).toNat = _
    rw [UInt8.toNat_ofNat']; omega
  have hn' : n.toNat = rs.length := by
    show (UInt8.ofNat _).toNat = _
    rw [UInt8.toNat_ofNat']; omega
  refine ⟨m', rs', filter_event m 0x3E s _ (by simp [hs]) (m', 0x0D :: n :: rs'.flatMap ExtReport.encode) ?_, h2⟩
  unfold eventParams
  rw [if_pos rfl]
  simp only [hn', h1, Option.map_some]

example : ExtReport.Valid ⟨0x13 :: 0 :: List.replicate 21 7, [4, 9, 0x4A, 0x6F, 0x65]⟩ :=
  ⟨by decide, 0x13, List.replicate 21 7, rfl, by decide, by decide⟩

/-- The commands whose parameters carry a name or GAP data, by their op codes. -/
def CarriesName (op : Nat) : Prop :=
  op ∈ [0x0C13, 0x0C52, 0x2008, 0x2009, 0x2037, 0x2038, 0x203F]

/-- **C13.** Every other framed command is written to the trace unchanged. -/
theorem C13_other_commands (m : Names) (o0 o1 s : UInt8) (ps : Bytes) (hs : ps.length = s.toNat)
    (ho : ¬ CarriesName (o0.toNat + 256 * o1.toNat)) :
    filterPacket m (o0 :: o1 :: s :: ps) 1 = some (m, o0 :: o1 :: s :: ps) := by
  have hcf : commandFilter (o0.toNat + 256 * o1.toNat) = none := by
    simp only [CarriesName, List.mem_cons, List.not_mem_nil, not_or] at ho
    simp [commandFilter, WRITE_LOCAL_NAME, WRITE_EXTENDED_INQUIRY_RESPONSE, LE_SET_ADVERTISING_DATA,
        LE_SET_SCAN_RESPONSE_DATA, LE_SET_EXTENDED_ADVERTISING_DATA, LE_SET_EXTENDED_SCAN_RESPONSE_DATA,
        LE_SET_PERIODIC_ADVERTISING_DATA, ho]
  unfold filterPacket
  rw [if_pos rfl]
  unfold filterCommand
  simp only [hcf]
  rw [if_neg (by omega)]

example : ¬ CarriesName ((0x03 : UInt8).toNat + 256 * (0x0C : UInt8).toNat) := by
  simp [CarriesName]

/-- **C13.** Every event other than LE meta events, command complete, remote name request complete and extended
inquiry result is written to the trace unchanged, and so are command complete events of other commands. -/
theorem C13_other_events (m : Names) (c s : UInt8) (ps : Bytes) (hs : ps.length = s.toNat)
    (hc : c ≠ 0x3E) (hc2 : c ≠ 0x07) (hc3 : c ≠ 0x2F)
    (hcc : c = 0x0E → ∃ k o0 o1 rest, ps = k :: o0 :: o1 :: rest ∧
      o0.toNat + 256 * o1.toNat ≠ 0x0C14 ∧ o0.toNat + 256 * o1.toNat ≠ 0x0C51) :
    filterPacket m (c :: s :: ps) 4 = some (m, c :: s :: ps) := by
  have he : eventParams m c ps = none := by
    unfold eventParams
    rw [if_neg hc]
    by_cases h : c = 0x0E
    · obtain ⟨k, o0, o1, rest, rfl, h1, h2⟩ := hcc h
      rw [if_pos h]
      simp only
      rw [if_neg (show ¬ _ = READ_LOCAL_NAME from h1), if_neg (show ¬ _ = READ_EXTENDED_INQUIRY_RESPONSE from h2)]
    · rw [if_neg h, if_neg hc2, if_neg hc3]
  unfold filterPacket
  rw [if_neg (by decide), if_neg (by decide), if_neg (by decide), if_pos rfl]
  unfold filterEvent
  simp only
  rw [if_neg (by omega), List.take_of_length_le (by omega), he]

example : filterPacket [] [0x0E, 4, 1, 0x03, 0x0C, 0] 4 = some ([], [0x0E, 4, 1, 0x03, 0x0C, 0]) := by
  decide +kernel

/-! ## Device names in GAP data -/

/-- What the filter does to the body (type octet and data) of one AD structure. -/
def BodyAsCoded (e : Entry) (body : Bytes) : Prop :=
  body.length = e.data.length + 1 ∧
  (¬ e.HoldsName → body = e.type :: e.data) ∧
  (e.HoldsName → ∃ i b last, body = generateName i e.data.length b ++ [last] ∧
    (e.type :: e.data).getLast? = some last)

theorem take_dropLast_last (l : Bytes) (h : l ≠ []) :
    l.take (l.length - 1) = l.dropLast ∧ l.drop (l.length - 1) = [l.getLast h] := by
  refine ⟨List.dropLast_eq_take.symm, ?_⟩
  obtain ⟨i, x, rfl⟩ : ∃ i x, l = i ++ [x] := ⟨l.dropLast, l.getLast h, (List.dropLast_append_getLast h).symm⟩
  simp

theorem filterGapFrom_entries (es : List Entry) : ∀ (m : Names) (fuel : Nat), Good m → (∀ e ∈ es, e.Valid) →
    (es.flatMap Entry.encode).length ≤ fuel →
    ∃ bodies : List Bytes, List.Forall₂ BodyAsCoded es bodies ∧
      (filterGapFrom fuel m (es.flatMap Entry.encode)).2 =
        bodies.flatMap (fun b => UInt8.ofNat b.length :: b) := by
  induction es with
  | nil =>
    intro m fuel _ _ _
    refine ⟨[], List.Forall₂.nil, ?_⟩
    cases fuel <;> rfl
  | cons e es ih =>
    intro m fuel hg hv hfuel
    have hve := hv e (by simp)
    unfold Entry.Valid at hve
    simp only [List.flatMap_cons, Entry.encode, List.cons_append, List.length_cons, List.length_append] at hfuel
    obtain ⟨f, rfl⟩ : ∃ f, fuel = f + 1 := ⟨fuel - 1, by omega⟩
    have hl : (UInt8.ofNat (e.data.length + 1)).toNat = e.data.length + 1 := by
      rw [UInt8.toNat_ofNat']
      omega
    have hne : UInt8.ofNat (e.data.length + 1) ≠ 0 := by
      intro h
      have := congrArg UInt8.toNat h
      rw [hl] at this
      simp at this
    have htake : (e.type :: (e.data ++ es.flatMap Entry.encode)).take (e.data.length + 1) = e.type :: e.data := by
      rw [List.take_succ_cons, List.take_left]
    have hdrop : (e.type :: (e.data ++ es.flatMap Entry.encode)).drop (e.data.length + 1) = es.flatMap Entry.encode := by
      rw [List.drop_succ_cons, List.drop_left]
    simp only [List.flatMap_cons, Entry.encode, List.cons_append]
    rw [filterGapFrom]
    rw [if_neg (by rw [hl, List.length_append]; omega), if_neg hne]
    simp only [hl, htake, hdrop, Nat.add_sub_cancel]
    obtain ⟨hd1, hd2⟩ := take_dropLast_last (e.type :: e.data) (by simp)
    simp only [List.length_cons, Nat.add_sub_cancel] at hd1 hd2
    by_cases hn : isName e.type = true
    · rw [if_pos hn]
      simp only
      obtain ⟨hg', _, _, i, b, _, hgen⟩ := changeName_spec hg ((e.type :: e.data).take e.data.length) true
      have hlen : ((e.type :: e.data).take e.data.length).length = e.data.length := by
        rw [List.length_take, List.length_cons]; omega
      rw [hlen] at hgen
      obtain ⟨bodies, hb1, hb2⟩ := ih _ f hg' (fun e he => hv e (by simp [he])) (by omega)
      have hbody : ((changeName m ((e.type :: e.data).take e.data.length) true).2 ++
          (e.type :: e.data).drop e.data.length).length = e.data.length + 1 := by
        rw [List.length_append, hd2, hgen, generateName_length]; rfl
      refine ⟨((changeName m ((e.type :: e.data).take e.data.length) true).2 ++
          (e.type :: e.data).drop e.data.length) :: bodies, List.Forall₂.cons ⟨hbody, ?_, ?_⟩ hb1, ?_⟩
      · intro hnn
        exfalso
        simp only [isName, Bool.or_eq_true, decide_eq_true_eq] at hn
        exact hnn hn
      · intro _
        refine ⟨i, b, (e.type :: e.data).getLast (by simp), ?_, ?_⟩
        · rw [hgen, hd2]
        · exact List.getLast?_eq_some_getLast (by simp)
      · rw [List.flatMap_cons, ← hb2, hbody]
        try simp
    · rw [if_neg hn]
      simp only
      obtain ⟨bodies, hb1, hb2⟩ := ih m f hg (fun e he => hv e (by simp [he])) (by omega)
      refine ⟨(e.type :: e.data) :: bodies, List.Forall₂.cons ⟨by simp, fun _ => rfl, ?_⟩ hb1, ?_⟩
      · intro hh
        exfalso
        apply hn
        simp only [isName, Bool.or_eq_true, decide_eq_true_eq]
        exact hh
      · rw [List.flatMap_cons, ← hb2]
        simp

/-- **C13 (partial).** On well-formed GAP data every length octet and every AD structure that is not a device name
is unchanged. In a device name structure all octets but the last are replaced by octets that do not depend on the
name. The full claim would keep the type octet and replace the last octet of the name as well: see
`C13_gap_type_kept_violated` and `C13_gap_name_replaced_violated`. -/
theorem C13_gap_partial (m : Names) (hg : Good m) (es : List Entry) (hv : ∀ e ∈ es, e.Valid) :
    ∃ bodies : List Bytes, List.Forall₂ BodyAsCoded es bodies ∧
      (filterGap m (es.flatMap Entry.encode)).2 = bodies.flatMap (fun b => UInt8.ofNat b.length :: b) :=
  filterGapFrom_entries es m _ hg hv (Nat.le_refl _)

example : (filterGap [] ([⟨1, [6]⟩, ⟨9, [0x4A, 0x6F, 0x65, 0x79]⟩, ⟨0xFF, [1, 2]⟩].flatMap Entry.encode)).2 =
    [2, 1, 6, 5, 0x23, 0x30, 0x30, 0x20, 0x79, 3, 0xFF, 1, 2] := by decide +kernel

/-- **C13, violated.** The type octet of a device name structure is overwritten with '#'. -/
theorem C13_gap_type_kept_violated : ∃ e : Entry, e.Valid ∧ e.HoldsName ∧
    ∃ rest, (filterGap [] e.encode).2 = 5 :: 0x23 :: rest ∧ e.encode.head? = some 5 ∧ e.type ≠ 0x23 := by
  refine ⟨⟨9, [0x4A, 0x6F, 0x65, 0x79]⟩, by simp [Entry.Valid], Or.inr rfl, [0x30, 0x30, 0x20, 0x79],
    by decide +kernel, by decide +kernel, by decide⟩

/-- **C13, violated.** The last octet of a device name survives: two names differing in it are still told apart, and
the octet itself is in the trace. Stated for every name. -/
theorem C13_gap_name_replaced_violated (m : Names) (hg : Good m) (name : Bytes) (last : UInt8)
    (hl : name.length < 254) :
    (filterGap m (Entry.encode ⟨9, name ++ [last]⟩)).2.getLast? = some last := by
  obtain ⟨bodies, hb, he⟩ := C13_gap_partial m hg [⟨9, name ++ [last]⟩] (by
    intro e he
    simp only [List.mem_singleton] at he
    subst he
    simp only [Entry.Valid, List.length_append, List.length_cons, List.length_nil]
    omega)
  cases hb with
  | cons h1 h2 =>
    cases h2
    obtain ⟨_, _, h3⟩ := h1
    obtain ⟨i, b, last', hbody, hlast⟩ := h3 (Or.inr rfl)
    simp only [List.flatMap_cons, List.flatMap_nil, List.append_nil] at he
    rw [he, hbody]
    have : last' = last := by
      have hx : (9 :: (name ++ [last]) : Bytes).getLast? = some last := by
        rw [← List.cons_append, List.getLast?_concat]
      rw [hx] at hlast
      exact (Option.some.inj hlast).symm
    subst this
    rw [← List.cons_append, List.getLast?_concat]

/-- **C13, violated.** A framed command whose parameters are too short for its op code aborts the process instead of
being logged. -/
theorem C13_malformed_aborts_violated : ∃ p : Bytes, Framed 1 p ∧ filterPacket [] p 1 = none :=
  ⟨[0x13, 0x0C, 0], by simp [Framed], by decide +kernel⟩

/-- **C13.** Data packets are never rejected when framed: only commands and events can abort. -/
theorem C13_data_never_aborts (m : Names) (h0 h1 s0 s1 : UInt8) (payload : Bytes) :
    (payload.length = s0.toNat + 256 * s1.toNat → (filterPacket m (h0 :: h1 :: s0 :: s1 :: payload) 2).isSome) ∧
    (payload.length = s0.toNat → (filterPacket m (h0 :: h1 :: s0 :: payload) 3).isSome) ∧
    (payload.length = s0.toNat + 256 * (s1.toNat % 64) →
      (filterPacket m (h0 :: h1 :: s0 :: s1 :: payload) 5).isSome) := by
  refine ⟨?_, ?_, ?_⟩ <;> intro h
  · simp [filterPacket, filterAcl, h]
  · simp [filterPacket, filterSco, h]
  · unfold filterPacket
    rw [if_neg (by decide), if_neg (by decide), if_neg (by decide), if_neg (by decide), if_pos rfl]
    simp only [filterIso, uint8_and_toNat, h]
    simp

/-! ## C14 -/

theorem rename_spec (ns : List (Bytes × Bool)) : ∀ (m : Names), Good m →
    Good (rename m ns).1 ∧ (∃ e, (rename m ns).1 = m ++ e) ∧
    (rename m ns).2.length = ns.length ∧
    ∀ i (hi : i < ns.length) (y : Bytes), (rename m ns).2[i]? = some y → lookup (rename m ns).1 (ns[i]).1 = some y := by
  induction ns with
  | nil => intro m hg; exact ⟨hg, ⟨[], by simp [rename]⟩, rfl, by intro i hi; simp at hi⟩
  | cons e ns ih =>
    intro m hg
    obtain ⟨n, b⟩ := e
    obtain ⟨h1, ⟨e1, h2⟩, h3, _⟩ := changeName_spec hg n b
    obtain ⟨i1, ⟨e2, i2⟩, i3, i4⟩ := ih _ h1
    simp only [rename]
    refine ⟨i1, ⟨e1 ++ e2, by rw [i2, h2, List.append_assoc]⟩, by simp [i3], ?_⟩
    intro i hi y hy
    cases i with
    | zero =>
      simp only [List.getElem?_cons_zero, Option.some.injEq] at hy
      subst hy
      rw [i2]
      exact lookup_append h3
    | succ i =>
      simp only [List.getElem?_cons_succ] at hy
      simpa using i4 i (by simpa using hi) y hy

/-- The text that stands for the `n`-th name of a session. -/
def pseudonym (n : Nat) : String := "#" ++ (if n < 10 then "0" else "") ++ toString n ++ " device"

theorem dec_eq (fuel : Nat) : ∀ n, n < fuel → (dec fuel n).map (fun d => UInt8.ofNat (0x30 + d)) = (Nat.toDigits 10 n).map (fun c => UInt8.ofNat c.toNat) := by
  have hd : ∀ d, d < 10 → UInt8.ofNat (0x30 + d) = UInt8.ofNat (Nat.digitChar d).toNat := by decide
  induction fuel with
  | zero => intro n h; omega
  | succ f ih =>
    intro n h
    unfold dec
    split
    · rename_i hn
      rw [Nat.toDigits_of_lt_base hn]
      simp only [List.map_cons, List.map_nil, hd n hn]
    · rename_i hn
      rw [Nat.toDigits_of_base_le (by omega) (by omega), List.map_append, List.map_append, ih (n / 10) (by omega)]
      simp only [List.map_cons, List.map_nil, hd (n % 10) (by omega)]

/-- **C13 (pseudonyms).** What replaces the `n`-th name is the text `#00 device`, `#01 device`, ..., cut to the length of the
name or filled up with spaces in GAP data and zeros elsewhere: it depends on the name only by its length. -/
theorem C13_pseudonym (n len : Nat) (padded : Bool) :
    generateName n len padded = ((pseudonym n).toList.map (fun c : Char => UInt8.ofNat c.toNat) ++ List.replicate len (if padded then 0x20 else 0)).take len := by
  have ht : text n = (pseudonym n).toList.map (fun c : Char => UInt8.ofNat c.toNat) := by
    have h1 : (pseudonym n).toList = '#' :: (if n < 10 then ['0'] else []) ++ Nat.toDigits 10 n ++ [' ', 'd', 'e', 'v', 'i', 'c', 'e'] := by
      simp only [pseudonym, String.toList_append]
      have : (toString n).toList = Nat.toDigits 10 n := by
        show (Nat.repr n).toList = _
        simp [Nat.repr]
      rw [this]
      split <;> rfl
    rw [h1]
    have h2 := dec_eq (n + 1) n (by omega)
    have hl : (dec (n + 1) n).length < 2 ↔ n < 10 := by
      constructor
      · intro h
        apply Decidable.byContradiction
        intro hn
        have hx : ¬ n < 10 := hn
        unfold dec at h
        rw [if_neg hx, List.length_append] at h
        have : dec n (n / 10) ≠ [] := by
          intro e
          have := val_dec n (n / 10) (by omega)
          rw [e] at this
          simp only [val] at this
          simp at this
          omega
        have : 0 < (dec n (n / 10)).length := List.length_pos_iff.mpr this
        simp at h
        omega
      · intro h
        unfold dec
        rw [if_pos h]
        simp
    simp only [text, dec2, hl]
    by_cases hn : n < 10
    · simp only [hn, if_true, List.map_cons, List.map_append, h2]
      simp [suffix]
    · simp only [hn, if_false, List.map_cons, List.map_append, h2]
      simp [suffix]
  unfold generateName
  rw [← ht, List.take_append, List.take_replicate]
  congr 2
  omega

example : generateName 7 12 true = "#07 device  ".toList.map (fun c => UInt8.ofNat c.toNat) ∧
    generateName 123 6 false = "#123 d".toList.map (fun c => UInt8.ofNat c.toNat) := by decide +kernel

/-- **C14.** In any sequence of replacements, through either interface, the same name always gets the same
pseudonym. -/
theorem C14_consistent (ns : List (Bytes × Bool)) (i j : Nat) (hi : i < ns.length) (hj : j < ns.length)
    (h : (ns[i]).1 = (ns[j]).1) : (rename [] ns).2[i]? = (rename [] ns).2[j]? := by
  obtain ⟨_, _, h3, h4⟩ := rename_spec ns [] good_nil
  have ei : (rename [] ns).2[i]? = some ((rename [] ns).2[i]'(by omega)) := by simp
  have ej : (rename [] ns).2[j]? = some ((rename [] ns).2[j]'(by omega)) := by simp
  have hi' := h4 i hi _ ei
  have hj' := h4 j hj _ ej
  rw [h, hj'] at hi'
  rw [ei, ej, hi']

/-- **C14.** A pseudonym has the length of the name it replaces. -/
theorem C14_same_length (ns : List (Bytes × Bool)) (i : Nat) (hi : i < ns.length) :
    ∃ y, (rename [] ns).2[i]? = some y ∧ y.length = (ns[i]).1.length := by
  obtain ⟨h1, _, h3, h4⟩ := rename_spec ns [] good_nil
  have ei : (rename [] ns).2[i]? = some ((rename [] ns).2[i]'(by omega)) := by simp
  refine ⟨_, ei, ?_⟩
  obtain ⟨k, hk, he⟩ := lookup_some (h4 i hi _ ei)
  obtain ⟨c, hc⟩ := h1.gen k hk
  rw [he] at hc
  simp only at hc
  rw [hc, generateName_length]

theorem rename_map_length (ns : List (Bytes × Bool)) : ∀ m, (rename m ns).1.length ≤ m.length + ns.length := by
  induction ns with
  | nil => intro m; simp [rename]
  | cons e ns ih =>
    intro m
    obtain ⟨n, b⟩ := e
    have := ih (changeName m n b).1
    have h2 : (changeName m n b).1.length ≤ m.length + 1 := by
      unfold changeName
      split <;> simp
    simp only [rename, List.length_cons]
    omega

/-- **C14 (partial).** In a session of at most `10^k` replacements, two different names of the same length get
different pseudonyms if they are longer than `k` octets (`k` at least 2). The full claim has no condition on the
length; it is false, see `C14_distinguishable_violated`. -/
theorem C14_distinguishable_partial (k : Nat) (hk : 2 ≤ k) (ns : List (Bytes × Bool)) (hns : ns.length ≤ 10 ^ k)
    (i j : Nat) (hi : i < ns.length) (hj : j < ns.length) (hne : (ns[i]).1 ≠ (ns[j]).1)
    (hl : (ns[i]).1.length = (ns[j]).1.length) (hlong : k < (ns[i]).1.length) :
    (rename [] ns).2[i]? ≠ (rename [] ns).2[j]? := by
  obtain ⟨h1, _, h3, h4⟩ := rename_spec ns [] good_nil
  have hm := rename_map_length ns []
  simp only [List.length_nil, Nat.zero_add] at hm
  have ei : (rename [] ns).2[i]? = some ((rename [] ns).2[i]'(by omega)) := by simp
  have ej : (rename [] ns).2[j]? = some ((rename [] ns).2[j]'(by omega)) := by simp
  obtain ⟨a, ha, hae⟩ := lookup_some (h4 i hi _ ei)
  obtain ⟨b, hb, hbe⟩ := lookup_some (h4 j hj _ ej)
  obtain ⟨c, hc⟩ := h1.gen a ha
  obtain ⟨d, hd⟩ := h1.gen b hb
  rw [hae] at hc
  rw [hbe] at hd
  simp only at hc hd
  intro heq
  rw [ei, ej] at heq
  have heq' := Option.some.inj heq
  rw [hc, hd, hl] at heq'
  have hab := generateName_inj hk (show a < 10 ^ k by omega) (show b < 10 ^ k by omega) (by omega) heq'
  subst hab
  rw [hae] at hbe
  exact hne (Prod.mk.inj hbe).1

example : (rename [] [([1, 2, 3, 4], true), ([1, 2, 3, 5], true), ([1, 2, 3, 4], false)]).2 =
    [[0x23, 0x30, 0x30, 0x20], [0x23, 0x30, 0x31, 0x20], [0x23, 0x30, 0x30, 0x20]] := by decide +kernel

/-- **C14, violated.** Different names of the same, short, length get the same pseudonym: there is no room for the
number. -/
theorem C14_distinguishable_violated :
    (rename [] [([0x41, 0x42], true), ([0x43, 0x44], true)]).2 = [[0x23, 0x30], [0x23, 0x30]] := by decide +kernel

end Verif.Pcap
