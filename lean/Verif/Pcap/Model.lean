/-!
# The PCAP filter

Models `/repo/lib/hci/pcap_filter.cc`. Packets are lists of bytes.

The packet views and builders are generated from `/repo/packets/hci_packets.pdl`; the model follows the layouts of
that file. Assumptions on the generated code, which is not part of the repository: a packet shorter than its fields
is invalid, bytes after a payload of declared size are ignored, enumerations are not range checked, reserved bits are
read as anything and written as zero. Where a view without payload is followed by further bytes the model says
invalid. `none` is the abort of `ASSERT(view.IsValid())`.
-/

namespace Verif.Pcap

abbrev Bytes := List UInt8

/-! ## Pseudonyms -/

/-- Decimal digits of `n`, most significant first; `fuel` bounds the number of digits. -/
def dec : Nat → Nat → List Nat
  | 0, _ => []
  | fuel + 1, n => if n < 10 then [n] else dec fuel (n / 10) ++ [n % 10]

/-- `%02zu`. -/
def dec2 (n : Nat) : List Nat :=
  let d := dec (n + 1) n
  if d.length < 2 then 0 :: d else d

/-- " device". -/
def suffix : Bytes := [0x20, 0x64, 0x65, 0x76, 0x69, 0x63, 0x65]

/-- The text `"#%02zu device"`, pcap_filter.cc:385. -/
def text (n : Nat) : Bytes := 0x23 :: (dec2 n).map (fun d => UInt8.ofNat (0x30 + d)) ++ suffix

/-- `generate_device_name`, pcap_filter.cc:380-394. The buffer is zero initialised; `snprintf` writes at most
`len` characters and the terminator; the rest is filled with spaces if `padded`. -/
def generateName (n len : Nat) (padded : Bool) : Bytes :=
  (text n).take len ++ List.replicate (len - (text n).length) (if padded then 0x20 else 0)

/-- `device_name_map`, pcap_filter.h: pairs of old and new names in order of creation. -/
abbrev Names := List (Bytes × Bytes)

/-- The search through `device_name_map`, pcap_filter.cc:397-401, 413-420. -/
def lookup : Names → Bytes → Option Bytes
  | [], _ => none
  | (o, n) :: m, name => if o = name then some n else lookup m name

/-- `PcapFilter::ChangeDeviceName`, vector pcap_filter.cc:396-410 (`padded`) and array of 248 bytes 412-431 (not
`padded`). In the array version the found name is copied into a zero array of 248 bytes; the stored name has the
length of the name it replaces, 248, so the copy is the stored name. -/
def changeName (m : Names) (name : Bytes) (padded : Bool) : Names × Bytes :=
  match lookup m name with
  | some n => (m, n)
  | none =>
    let n := generateName m.length name.length padded
    (m ++ [(name, n)], n)

/-! ## GAP data -/

/-- `GapDataType::SHORTENED_LOCAL_NAME` 8 and `COMPLETE_LOCAL_NAME` 9, hci_packets.pdl:6381-6382. -/
def isName (t : UInt8) : Bool := t = 8 || t = 9

/-- `PcapFilter::FilterGapData`, pcap_filter.cc:165-198, from the current offset; `fuel` bounds the number of
iterations, each of which consumes at least a byte. `l :: t :: rest` is `offset + 2 <= gap_data_len`;
the truncation test is `offset + length + 1 > gap_data_len`. The name handed to `ChangeDeviceName` is
`[offset + 1, offset + length)`, which starts at the type octet and has `length - 1` bytes. -/
def filterGapFrom : Nat → Names → Bytes → Names × Bytes
  | fuel + 1, m, l :: t :: rest =>
    if l.toNat + 1 > rest.length + 2 then (m, l :: t :: rest)
    else if l = 0 then
      let r := filterGapFrom fuel m (t :: rest)
      (r.1, l :: r.2)
    else
      let entry := (t :: rest).take l.toNat
      let c := if isName t then
          let n := changeName m (entry.take (l.toNat - 1)) true
          (n.1, n.2 ++ entry.drop (l.toNat - 1))
        else (m, entry)
      let r := filterGapFrom fuel c.1 ((t :: rest).drop l.toNat)
      (r.1, l :: c.2 ++ r.2)
  | _, m, data => (m, data)

/-- `PcapFilter::FilterGapData` on a whole array. -/
def filterGap (m : Names) (data : Bytes) : Names × Bytes := filterGapFrom data.length m data

/-! ## Data packets -/

/-- `FilterHciAcl`, pcap_filter.cc:132-141; layout hci_packets.pdl:23-29. All header bits are kept. -/
def filterAcl : Bytes → Option Bytes
  | h0 :: h1 :: s0 :: s1 :: payload =>
    let size := s0.toNat + 256 * s1.toNat
    if payload.length < size then none else some (h0 :: h1 :: s0 :: s1 :: List.replicate size 0)
  | _ => none

/-- `FilterHciSco`, pcap_filter.cc:143-149; layout hci_packets.pdl:40-46. The two reserved bits are written as
zero. -/
def filterSco : Bytes → Option Bytes
  | h0 :: h1 :: s :: data =>
    if data.length < s.toNat then none else some (h0 :: (h1 &&& 0x3f) :: s :: List.replicate s.toNat 0)
  | _ => none

/-- `FilterHciIso`, pcap_filter.cc:151-160; layout hci_packets.pdl:6338-6346. The reserved bits are written as
zero. -/
def filterIso : Bytes → Option Bytes
  | h0 :: h1 :: s0 :: s1 :: payload =>
    let size := s0.toNat + 256 * (s1 &&& 0x3f).toNat
    if payload.length < size then none
    else some (h0 :: (h1 &&& 0x7f) :: s0 :: (s1 &&& 0x3f) :: List.replicate size 0)
  | _ => none

/-! ## Commands and events -/

/-- The result of a filter: the new name table and the parameters. -/
abbrev Result := Option (Names × Bytes)

/-- A fixed part of `off` bytes and a 248 byte name: WriteLocalName (off 0), hci_packets.pdl:1963-1965. -/
def nameAt (off : Nat) (m : Names) (ps : Bytes) : Result :=
  if ps.length = off + 248 then
    let r := changeName m (ps.drop off) false
    some (r.1, ps.take off ++ r.2)
  else none

/-- A fixed part of `off` bytes and a 240 byte extended inquiry response. -/
def eirAt (off : Nat) (m : Names) (ps : Bytes) : Result :=
  if ps.length = off + 240 then
    let r := filterGap m (ps.drop off)
    some (r.1, ps.take off ++ r.2)
  else none

/-- `_size_ : 8, data, _padding_[31]`: LeSetAdvertisingData and LeSetScanResponseData,
hci_packets.pdl:3327-3341; pcap_filter.cc:225-243. -/
def advData (m : Names) : Bytes → Result
  | s :: rest =>
    if rest.length = max s.toNat 31 then
      let r := filterGap m (rest.take s.toNat)
      some (r.1, s :: r.2 ++ List.replicate (31 - s.toNat) 0)
    else none
  | [] => none

/-- LeSetExtendedAdvertisingData and LeSetExtendedScanResponseData, hci_packets.pdl:4004-4034;
pcap_filter.cc:246-271. -/
def extAdvData (m : Names) : Bytes → Result
  | h :: op :: frag :: s :: data =>
    if data.length = s.toNat then
      let r := filterGap m data
      some (r.1, h :: (op &&& 7) :: (frag &&& 1) :: s :: r.2)
    else none
  | _ => none

/-- LeSetPeriodicAdvertisingData, hci_packets.pdl:4144-4150; pcap_filter.cc:275-285. -/
def perAdvData (m : Names) : Bytes → Result
  | h :: op :: s :: data =>
    if data.length = s.toNat then
      let r := filterGap m data
      some (r.1, h :: (op &&& 7) :: s :: r.2)
    else none
  | _ => none

/-- Op codes, hci_packets.pdl. -/
def WRITE_LOCAL_NAME : Nat := 0x0C13
def READ_LOCAL_NAME : Nat := 0x0C14
def READ_EXTENDED_INQUIRY_RESPONSE : Nat := 0x0C51
def WRITE_EXTENDED_INQUIRY_RESPONSE : Nat := 0x0C52
def LE_SET_ADVERTISING_DATA : Nat := 0x2008
def LE_SET_SCAN_RESPONSE_DATA : Nat := 0x2009
def LE_SET_EXTENDED_ADVERTISING_DATA : Nat := 0x2037
def LE_SET_EXTENDED_SCAN_RESPONSE_DATA : Nat := 0x2038
def LE_SET_PERIODIC_ADVERTISING_DATA : Nat := 0x203F

/-- The switch of `PcapFilter::FilterHciCommand`, pcap_filter.cc:71-88: the filter of the parameters, if any. -/
def commandFilter (op : Nat) : Option (Names → Bytes → Result) :=
  if op = WRITE_LOCAL_NAME then some (nameAt 0)
  else if op = WRITE_EXTENDED_INQUIRY_RESPONSE then some (eirAt 1)
  else if op = LE_SET_ADVERTISING_DATA ∨ op = LE_SET_SCAN_RESPONSE_DATA then some advData
  else if op = LE_SET_EXTENDED_ADVERTISING_DATA ∨ op = LE_SET_EXTENDED_SCAN_RESPONSE_DATA then some extAdvData
  else if op = LE_SET_PERIODIC_ADVERTISING_DATA then some perAdvData
  else none

/-- `PcapFilter::FilterHciCommand`, pcap_filter.cc:68-90. -/
def filterCommand (m : Names) : Bytes → Result
  | o0 :: o1 :: s :: rest =>
    if rest.length < s.toNat then none
    else
      match commandFilter (o0.toNat + 256 * o1.toNat) with
      | none => some (m, o0 :: o1 :: s :: rest)
      | some f =>
        match f m (rest.take s.toNat) with
        | none => none
        | some r => some (r.1, o0 :: o1 :: s :: r.2)
  | _ => none

/-- ReadLocalNameComplete after the op code: status, name; hci_packets.pdl:1974-1977, pcap_filter.cc:288-301. The
name is replaced only if the status is SUCCESS. -/
def readLocalName (m : Names) (ps : Bytes) : Result :=
  if ps.length = 249 then
    if ps.head? = some 0 then nameAt 1 m ps else some (m, ps)
  else none

/-- ReadExtendedInquiryResponseComplete after the op code; hci_packets.pdl:2468-2472, pcap_filter.cc:304-318. -/
def readEir (m : Names) (ps : Bytes) : Result :=
  if ps.length = 242 then
    if ps.head? = some 0 then eirAt 2 m ps else some (m, ps)
  else none

/-- RemoteNameRequestComplete; hci_packets.pdl:5449-5453, pcap_filter.cc:321-333. -/
def remoteName (m : Names) (ps : Bytes) : Result :=
  if ps.length = 255 then
    if ps.head? = some 0 then nameAt 7 m ps else some (m, ps)
  else none

/-- Clearing the reserved fields of ExtendedInquiryResult (bytes 8 and the top bit of byte 13). -/
def eirResultHeader (ps : Bytes) : Bytes := (ps.set 8 0).modify 13 (· &&& 0x7f)

/-- ExtendedInquiryResult; hci_packets.pdl:5725-5738, pcap_filter.cc:336-347. The first byte is fixed to 1. -/
def eirResult (m : Names) (ps : Bytes) : Result :=
  if ps.length = 255 ∧ ps.head? = some 1 then eirAt 15 m (eirResultHeader ps) else none

/-- LeAdvertisingReport responses; hci_packets.pdl:5856-5868, pcap_filter.cc:350-360. `pre` bytes precede the size of
the data and `post` bytes follow the data; `hdr` clears the reserved bits. -/
def reports (pre post : Nat) (hdr : Bytes → Bytes) : Nat → Names → Bytes → Result
  | 0, m, ps => if ps = [] then some (m, []) else none
  | n + 1, m, ps =>
    match ps.drop pre with
    | [] => none
    | s :: rest =>
      if rest.length < s.toNat + post then none
      else
        let r := filterGap m (rest.take s.toNat)
        match reports pre post hdr n r.1 (rest.drop (s.toNat + post)) with
        | none => none
        | some q => some (q.1, hdr (ps.take pre) ++ s :: r.2 ++ (rest.drop s.toNat).take post ++ q.2)

/-- The reserved bits of LeExtendedAdvertisingResponse, hci_packets.pdl:5993-6013: the nine bits after the data
status. -/
def extReportHeader (ps : Bytes) : Bytes := (ps.modify 0 (· &&& 0x7f)).set 1 0

/-- `PcapFilter::FilterHciEvent` after the event header, pcap_filter.cc:92-130: the filter of the parameters.
`some none` is an abort, `none` means the event is passed through. -/
def eventParams (m : Names) (code : UInt8) (ps : Bytes) : Option Result :=
  if code = 0x3E then
    match ps with
    | 0x02 :: n :: rest =>
      some ((reports 8 1 id n.toNat m rest).map (fun r => (r.1, 0x02 :: n :: r.2)))
    | 0x0D :: n :: rest =>
      some ((reports 23 0 extReportHeader n.toNat m rest).map (fun r => (r.1, 0x0D :: n :: r.2)))
    | [0x02] | [0x0D] => some none
    | [] => some none
    | _ => none
  else if code = 0x0E then
    match ps with
    | k :: o0 :: o1 :: rest =>
      if o0.toNat + 256 * o1.toNat = READ_LOCAL_NAME then
        some ((readLocalName m rest).map (fun r => (r.1, k :: o0 :: o1 :: r.2)))
      else if o0.toNat + 256 * o1.toNat = READ_EXTENDED_INQUIRY_RESPONSE then
        some ((readEir m rest).map (fun r => (r.1, k :: o0 :: o1 :: r.2)))
      else none
    | _ => some none
  else if code = 0x07 then some (remoteName m ps)
  else if code = 0x2F then some (eirResult m ps)
  else none

/-- `PcapFilter::FilterHciEvent`, pcap_filter.cc:92-130. -/
def filterEvent (m : Names) : Bytes → Result
  | c :: s :: rest =>
    if rest.length < s.toNat then none
    else
      match eventParams m c (rest.take s.toNat) with
      | none => some (m, c :: s :: rest)
      | some none => none
      | some (some r) => some (r.1, c :: s :: r.2)
  | _ => none

/-- `PcapFilter::FilterHciPacket`, pcap_filter.cc:50-66. -/
def filterPacket (m : Names) (packet : Bytes) (idc : UInt8) : Result :=
  if idc = 1 then filterCommand m packet
  else if idc = 2 then (filterAcl packet).map (m, ·)
  else if idc = 3 then (filterSco packet).map (m, ·)
  else if idc = 4 then filterEvent m packet
  else if idc = 5 then (filterIso packet).map (m, ·)
  else some (m, packet)

end Verif.Pcap
