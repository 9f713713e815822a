import Verif.WireAir.Adv
import Verif.WireAir.AdvSpec
import Verif.WireAir.Lemmas

/-!
# C134: what an LE controller advertises, asks or answers over the air, the other receives

**C134.** An advertisement, a scan request or response, a connection request or its completion that a controller sends is received by the
other with its addresses, their types and every value, and packets that differ have different octets.

The octets are those of `AdvSpec.lean`; the controllers write and read them through the layouts of link_layer_packets.pdl.
-/
namespace Verif.WireAir.Adv

open Verif.Pdl Verif.Pdl.LinkLayer
open Verif.Wire (le yes data octets_16 octets_bits8)
open Verif.WireBr (octet)
open Verif.Ll (PhyType PduType)
open Verif.Le (AddressType AddressWithType)

theorem typed_of (t : AddressType) : typed t = addressNumber t := by cases t <;> rfl
theorem pdu_of (t : PduType) : pdu t = pduNumber t := by cases t <;> rfl
theorem phy_of (t : PhyType) : phy t = phyNumber t := by cases t <;> rfl
theorem typed_8 (t : AddressType) : typed t < 256 := by cases t <;> decide
theorem pdu_8 (t : PduType) : pdu t < 256 := by cases t <;> decide
theorem phy_8 (t : PhyType) : phy t < 256 := by cases t <;> decide
theorem flagged_1 (b : Bool) : flagged b < 2 := by cases b <;> decide
theorem flagged_of (b : Bool) : (flagged b != 0) = b := by cases b <;> rfl
theorem typedIn_of (a : AddressWithType) : typedIn a.address.toNat (typed a.type) = some a := by
  obtain ⟨a, t⟩ := a; cases t <;> simp [typedIn, typed, typeIn]
theorem pduIn_of (t : PduType) : pduIn (pdu t) = some t := by cases t <;> rfl
theorem phyIn_of (t : PhyType) : phyIn (phy t) = some t := by cases t <;> rfl
theorem address (a : Le.Address) : Address a.toNat := a.isLt

theorem flags (a b c : Bool) (r : List Bool) :
    octets (bits 1 (flagged a) ++ (bits 1 (flagged b) ++ (bits 1 (flagged c) ++ (bits 5 0 ++ r)))) =
      (yes a + 2 * yes b + 4 * yes c) :: octets r := by
  cases a <;> cases b <;> cases c <;> simp [flagged, yes, bits, octets, num]

theorem octet_mod {n : Nat} (h : n < 256) : n % 256 = n := Nat.mod_eq_of_lt h

/-- What is sent has the octets of the specification. -/
theorem C134_octets (w : Nat) (hw : w < 256) (p : Ll.Packet) (h : Fits p) : send w p = onAir w p := by
  cases p with
  | legacyAdv p =>
    refine (of_enc 11 _ _ _ _ _ (by decide) ?_).trans (by
      show _ ++ ([addressNumber p.adv.type, addressNumber p.target.type, pduNumber p.type] ++ p.data.map UInt8.toNat) = _
      simp [onAir])
    show octets (bits 8 (typed p.adv.type) ++ (bits 8 (typed p.target.type) ++ (bits 8 (pdu p.type) ++
      (padTo 0 ((p.data.map octet).flatMap (fun y => enc (.uint 8 .done) y [])) ++ [])))) = _
    rw [octets_bits8, octets_bits8, octets_bits8, bytes_octets, octet_mod (typed_8 _), octet_mod (typed_8 _), octet_mod (pdu_8 _),
      typed_of, typed_of, pdu_of]
    simp [octets]
  | extAdv p =>
    refine (of_enc 55 _ _ _ _ _ (by decide) ?_).trans (by
      show _ ++ ([addressNumber p.adv.type, addressNumber p.target.type,
        yes p.connectable + 2 * yes p.scannable + 4 * yes p.directed,
        p.sid, w, phyNumber p.primary, phyNumber p.secondary] ++ le 2 p.interval ++ p.data.map UInt8.toNat) = _
      simp [onAir])
    show octets (bits 8 (typed p.adv.type) ++ (bits 8 (typed p.target.type) ++ (bits 1 (flagged p.connectable) ++
      (bits 1 (flagged p.scannable) ++ (bits 1 (flagged p.directed) ++ (bits 5 0 ++ (bits 8 p.sid ++ (bits 8 w ++
      (bits 8 (phy p.primary) ++ (bits 8 (phy p.secondary) ++ (bits 16 p.interval ++
      (padTo 0 ((p.data.map octet).flatMap (fun y => enc (.uint 8 .done) y [])) ++ [])))))))))))) = _
    rw [octets_bits8, octets_bits8, flags, octets_bits8, octets_bits8, octets_bits8, octets_bits8, octets_16, bytes_octets,
      octet_mod (typed_8 _), octet_mod (typed_8 _), octet_mod h.1, octet_mod hw, octet_mod (phy_8 _), octet_mod (phy_8 _),
      typed_of, typed_of, phy_of, phy_of]
    simp [octets]
  | periodic p =>
    refine (of_enc 64 _ _ _ _ _ (by decide) ?_).trans (by
      show _ ++ ([addressNumber p.adv.type, p.sid, w] ++ le 2 p.interval ++ p.data.map UInt8.toNat) = _
      simp [onAir, le])
    show octets (bits 8 (typed p.adv.type) ++ (bits 8 p.sid ++ (bits 8 w ++ (bits 16 p.interval ++
      (padTo 0 ((p.data.map octet).flatMap (fun y => enc (.uint 8 .done) y [])) ++ []))))) = _
    rw [octets_bits8, octets_bits8, octets_bits8, octets_16, bytes_octets, octet_mod (typed_8 _), octet_mod h.1, octet_mod hw,
      typed_of]
    simp [octets]
  | connect i a l =>
    refine (of_enc 12 _ _ _ _ _ (by decide) ?_).trans (by
      show _ ++ ([addressNumber i.type, addressNumber a.type] ++ le 2 l.interval ++ le 2 l.latency ++ le 2 l.timeout) = _
      simp [onAir])
    show octets (bits 8 (typed i.type) ++ (bits 8 (typed a.type) ++ (bits 16 l.interval ++ (bits 16 l.latency ++
      (bits 16 l.timeout ++ []))))) = _
    rw [octets_bits8, octets_bits8, octets_16, octets_16, octets_16, octet_mod (typed_8 _), octet_mod (typed_8 _), typed_of, typed_of]
    simp [octets]
  | connectComplete i a l =>
    refine (of_enc 13 _ _ _ _ _ (by decide) ?_).trans (by
      show _ ++ ([addressNumber i.type, addressNumber a.type] ++ le 2 l.interval ++ le 2 l.latency ++ le 2 l.timeout) = _
      simp [onAir])
    show octets (bits 8 (typed i.type) ++ (bits 8 (typed a.type) ++ (bits 16 l.interval ++ (bits 16 l.latency ++
      (bits 16 l.timeout ++ []))))) = _
    rw [octets_bits8, octets_bits8, octets_16, octets_16, octets_16, octet_mod (typed_8 _), octet_mod (typed_8 _), typed_of, typed_of]
    simp [octets]
  | scan s a =>
    refine (of_enc 14 _ _ _ _ _ (by decide) ?_).trans (by
      show _ ++ [addressNumber s.type, addressNumber a.type] = _
      simp [onAir])
    show octets (bits 8 (typed s.type) ++ (bits 8 (typed a.type) ++ [])) = _
    rw [octets_bits8, octets_bits8, octet_mod (typed_8 _), octet_mod (typed_8 _), typed_of, typed_of]
    simp [octets]
  | scanResponse a s x =>
    refine (of_enc 15 _ _ _ _ _ (by decide) ?_).trans (by
      show _ ++ ([addressNumber a.type] ++ x.map UInt8.toNat) = _
      simp [onAir])
    show octets (bits 8 (typed a.type) ++ (padTo 0 ((x.map octet).flatMap (fun y => enc (.uint 8 .done) y [])) ++ [])) = _
    rw [octets_bits8, bytes_octets, octet_mod (typed_8 _), typed_of]
    simp [octets]
  | link s d b => exact h.elim

/-- What is sent is received. -/
theorem C134_receive (w : Nat) (hw : w < 256) (p : Ll.Packet) (h : Fits p) : receive (send w p) = some p := by
  cases p with
  | legacyAdv p =>
    obtain ⟨h1, h2⟩ := built 11 bodyLeLegacyAdvertisingPdu p.adv.address.toNat p.target.address.toNat
      (typed p.adv.type, typed p.target.type, pdu p.type, p.data.map octet, ()) (by decide) (address _) (address _) (by decide)
      (by air_fits [bodyLeLegacyAdvertisingPdu, typed_8, pdu_8]; exact array_fits _)
    simp only [receive, send, h1, h2, Option.bind_some, typedIn_of, pduIn_of]
    exact congrArg (fun x => some (Ll.Packet.legacyAdv { p with data := x })) (data_octet p.data)
  | extAdv p =>
    obtain ⟨h1, h2⟩ := built 55 bodyLeExtendedAdvertisingPdu p.adv.address.toNat p.target.address.toNat
      (typed p.adv.type, typed p.target.type, flagged p.connectable, flagged p.scannable, flagged p.directed, p.sid, w,
        phy p.primary, phy p.secondary, p.interval, p.data.map octet, ()) (by decide) (address _) (address _) (by decide)
      (by air_fits [bodyLeExtendedAdvertisingPdu, typed_8, phy_8, flagged_1, h.1, h.2, hw]; exact array_fits _)
    simp only [receive, send, h1, h2, Option.bind_some, typedIn_of, phyIn_of, flagged_of]
    exact congrArg (fun x => some (Ll.Packet.extAdv { p with data := x })) (data_octet p.data)
  | periodic p =>
    obtain ⟨h1, h2⟩ := built 64 bodyLePeriodicAdvertisingPdu p.adv.address.toNat 0
      (typed p.adv.type, p.sid, w, p.interval, p.data.map octet, ()) (by decide) (address _) (by unfold Address; decide) (by decide)
      (by air_fits [bodyLePeriodicAdvertisingPdu, typed_8, h.1, h.2, hw]; exact array_fits _)
    simp only [receive, send, h1, h2, Option.bind_some, typedIn_of, Option.map_some]
    exact congrArg (fun x => some (Ll.Packet.periodic { p with data := x })) (data_octet p.data)
  | connect i a l =>
    obtain ⟨h1, h2⟩ := built 12 bodyLeConnect i.address.toNat a.address.toNat
      (typed i.type, typed a.type, l.interval, l.latency, l.timeout, ()) (by decide) (address _) (address _) (by decide)
      (by air_fits [bodyLeConnect, typed_8, h.1, h.2.1, h.2.2])
    simp only [receive, send, h1, h2, Option.bind_some, typedIn_of]
  | connectComplete i a l =>
    obtain ⟨h1, h2⟩ := built 13 bodyLeConnectComplete a.address.toNat i.address.toNat
      (typed i.type, typed a.type, l.interval, l.latency, l.timeout, ()) (by decide) (address _) (address _) (by decide)
      (by air_fits [bodyLeConnectComplete, typed_8, h.1, h.2.1, h.2.2])
    simp only [receive, send, h1, h2, Option.bind_some, typedIn_of]
  | scan s a =>
    obtain ⟨h1, h2⟩ := built 14 bodyLeScan s.address.toNat a.address.toNat
      (typed s.type, typed a.type, ()) (by decide) (address _) (address _) (by decide)
      (by air_fits [bodyLeScan, typed_8])
    simp only [receive, send, h1, h2, Option.bind_some, typedIn_of]
  | scanResponse a s x =>
    obtain ⟨h1, h2⟩ := built 15 bodyLeScanResponse a.address.toNat s.toNat
      (typed a.type, x.map octet, ()) (by decide) (address _) (address _) (by decide)
      (by air_fits [bodyLeScanResponse, typed_8]; exact array_fits _)
    simp only [receive, send, h1, h2, Option.bind_some, typedIn_of, Option.map_some]
    simp
    exact data_octet x
  | link s d b => exact h.elim

/-- Packets that differ have different octets, whatever the transmission powers. -/
theorem C134_distinct (w w' : Nat) (hw : w < 256) (hw' : w' < 256) (p q : Ll.Packet) (h : Fits p) (h' : Fits q)
    (e : onAir w p = onAir w' q) : p = q := by
  rw [← C134_octets w hw p h, ← C134_octets w' hw' q h'] at e
  have := C134_receive w hw p h
  rw [e, C134_receive w' hw' q h'] at this
  exact (Option.some.inj this).symm

/-- A sequence of packets is received as it was sent. -/
theorem C134_all (w : Nat) (hw : w < 256) (l : List Ll.Packet) (h : ∀ p ∈ l, Fits p) :
    (l.map (send w)).map receive = l.map some := by
  rw [List.map_map]
  exact List.map_congr_left fun p hp => C134_receive w hw p (h p hp)

/-- The types and layouts of the packets. -/
def layouts : List (Nat × Fmt) := [(11, bodyLeLegacyAdvertisingPdu), (55, bodyLeExtendedAdvertisingPdu),
  (64, bodyLePeriodicAdvertisingPdu), (12, bodyLeConnect), (13, bodyLeConnectComplete), (14, bodyLeScan), (15, bodyLeScanResponse)]

/-- The layouts are declared in link_layer_packets.pdl, each with its type. -/
theorem C134_layouts : ∀ e ∈ layouts, ∃ name, (⟨name, [⟨bodyLinkLayerPacket, [(0, e.1)]⟩, ⟨e.2, []⟩]⟩ : Pdl.Packet) ∈
    packetsLinkLayerPacket := by
  intro e he
  simp only [layouts, List.mem_cons, List.not_mem_nil, or_false] at he
  rcases he with rfl | rfl | rfl | rfl | rfl | rfl | rfl
  · exact ⟨"LeLegacyAdvertisingPdu", List.mem_of_getElem? (i := 11) rfl⟩
  · exact ⟨"LeExtendedAdvertisingPdu", List.mem_of_getElem? (i := 12) rfl⟩
  · exact ⟨"LePeriodicAdvertisingPdu", List.mem_of_getElem? (i := 13) rfl⟩
  · exact ⟨"LeConnect", List.mem_of_getElem? (i := 14) rfl⟩
  · exact ⟨"LeConnectComplete", List.mem_of_getElem? (i := 15) rfl⟩
  · exact ⟨"LeScan", List.mem_of_getElem? (i := 16) rfl⟩
  · exact ⟨"LeScanResponse", List.mem_of_getElem? (i := 17) rfl⟩

/-! ### A case -/

/-- An extended advertisement. -/
example : receive (send 0x0a (.extAdv ⟨⟨0x112233445566#48, .randomDevice⟩, ⟨0#48, .publicDevice⟩, true, false, false, 3, .le1m, .le2m,
    24, [0x02, 0x01, 0x06]⟩)) = some (.extAdv ⟨⟨0x112233445566#48, .randomDevice⟩, ⟨0#48, .publicDevice⟩, true, false, false, 3, .le1m,
    .le2m, 24, [0x02, 0x01, 0x06]⟩) := C134_receive _ (by decide) _ ⟨by decide, by decide⟩

/-- A completion has the advertiser first. -/
example : send 0 (.connectComplete ⟨1#48, .publicDevice⟩ ⟨2#48, .randomDevice⟩ ⟨24, 0, 500⟩) =
    [0x0d, 2, 0, 0, 0, 0, 0, 1, 0, 0, 0, 0, 0, 0, 1, 24, 0, 0, 0, 0xf4, 1] := by
  rw [C134_octets 0 (by decide) _ (show Fits (.connectComplete _ _ ⟨24, 0, 500⟩) from ⟨by decide, by decide, by decide⟩)]; rfl

end Verif.WireAir.Adv
