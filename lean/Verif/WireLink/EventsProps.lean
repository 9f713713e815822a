import Verif.WireLink.EventsLemmas

/-!
# C131: the host can tell from the octets what happened on an LE connection

**C131.** The events about PHYs, encryption, keys, remote features and version, subrates and connection parameters of LE
connections, their data and their completed packets are written as the core specification lays them out: a host that reads the
octets by the core specification gets the event with all its values, so events with the same octets are the same.

The octets and the host are those of `EventsSpec.lean`, written from the core specification; the controller writes them through
the layouts of hci_packets.pdl (`C131_layouts`).
-/
namespace Verif.WireLink

open Verif.Pdl Verif.Pdl.Hci
open Verif.Wire (le yes le_length octets_12_4 octets_12_4e)
open Verif.WireBr (event_octets acl_octets completed_octets get_le bytes_of)
open Verif.WireLe (subevent_octets)

/-- The codes and layouts of the subevents. -/
def subeventLayouts : List (Nat × Fmt) := [
  (0x03, bodyLeConnectionUpdateComplete), (0x04, bodyLeReadRemoteFeaturesPage0Complete), (0x05, bodyLeLongTermKeyRequest),
  (0x06, bodyLeRemoteConnectionParameterRequest), (0x0c, bodyLePhyUpdateComplete), (0x23, bodyLeSubrateChange)]

/-- The codes and layouts of the events. -/
def eventLayouts : List (Nat × Fmt) := [
  (0x08, bodyEncryptionChange), (0x0c, bodyReadRemoteVersionInformationComplete), (0x13, bodyNumberOfCompletedPackets),
  (0x30, bodyEncryptionKeyRefreshComplete), (0x59, bodyEncryptionChangeV2)]

/-- The layouts are declared in hci_packets.pdl, each with its code. -/
theorem C131_layouts : (∀ e ∈ subeventLayouts, ∃ name,
      (⟨name, [⟨bodyEvent, [(0, 62)]⟩, ⟨bodyLeMetaEvent, [(0, e.1)]⟩, ⟨e.2, []⟩]⟩ : Pdl.Packet) ∈ packetsEvent) ∧
    (∀ e ∈ eventLayouts, ∃ name, (⟨name, [⟨bodyEvent, [(0, e.1)]⟩, ⟨e.2, []⟩]⟩ : Pdl.Packet) ∈ packetsEvent) := by
  constructor
  · intro e he
    simp only [subeventLayouts, List.mem_cons, List.not_mem_nil, or_false] at he
    rcases he with rfl | rfl | rfl | rfl | rfl | rfl
    · exact ⟨"LeConnectionUpdateComplete", List.mem_of_getElem? (i := 345) rfl⟩
    · exact ⟨"LeReadRemoteFeaturesPage0Complete", List.mem_of_getElem? (i := 175) rfl⟩
    · exact ⟨"LeLongTermKeyRequest", List.mem_of_getElem? (i := 346) rfl⟩
    · exact ⟨"LeRemoteConnectionParameterRequest", List.mem_of_getElem? (i := 347) rfl⟩
    · exact ⟨"LePhyUpdateComplete", List.mem_of_getElem? (i := 354) rfl⟩
    · exact ⟨"LeSubrateChange", List.mem_of_getElem? (i := 381) rfl⟩
  · intro e he
    simp only [eventLayouts, List.mem_cons, List.not_mem_nil, or_false] at he
    rcases he with rfl | rfl | rfl | rfl | rfl
    · exact ⟨"EncryptionChange", List.mem_of_getElem? (i := 298) rfl⟩
    · exact ⟨"ReadRemoteVersionInformationComplete", List.mem_of_getElem? (i := 303) rfl⟩
    · exact ⟨"NumberOfCompletedPackets", List.mem_of_getElem? (i := 308) rfl⟩
    · exact ⟨"EncryptionKeyRefreshComplete", List.mem_of_getElem? (i := 328) rfl⟩
    · exact ⟨"EncryptionChangeV2", List.mem_of_getElem? (i := 299) rfl⟩

/-- What the controller sends has the octets of the core specification. -/
theorem C131_octets (e : Tell) (h : Tellable e) : toHost e = told e := by
  cases e with
  | link e => cases e with
    | phyDone j tx rx =>
      exact subevent_octets 0x0c _ _ _ (by decide)
        (by lt_enc [bodyLePhyUpdateComplete, octets_12_4 _ _ h, octets_12_4e _ h]) (by lt_len [bodyLePhyUpdateComplete]) (by lt_len [])
    | ltkRequest j x e => exact ltk_octets j e x h.1 h.2.1
    | encChange st j b =>
      exact event_octets 0x08 _ _ _ (by decide)
        (by lt_enc [bodyEncryptionChange, octets_12_4 _ _ h.2, octets_12_4e _ h.2]) (by lt_len [bodyEncryptionChange]) (by lt_len [])
    | encChangeV2 st j b =>
      exact event_octets 0x59 _ _ _ (by decide)
        (by lt_enc [bodyEncryptionChangeV2, octets_12_4 _ _ h.2, octets_12_4e _ h.2]; rfl) (by lt_len [bodyEncryptionChangeV2])
        (by lt_len [])
    | keyRefresh st j =>
      exact event_octets 0x30 _ _ _ (by decide)
        (by lt_enc [bodyEncryptionKeyRefreshComplete, octets_12_4 _ _ h.2, octets_12_4e _ h.2])
        (by lt_len [bodyEncryptionKeyRefreshComplete]) (by lt_len [])
    | features st j f =>
      exact subevent_octets 0x04 _ _ _ (by decide)
        (by lt_enc [bodyLeReadRemoteFeaturesPage0Complete, octets_12_4 _ _ h.2.1, octets_12_4e _ h.2.1])
        (by lt_len [bodyLeReadRemoteFeaturesPage0Complete]) (by lt_len [])
    | version j v c s =>
      exact event_octets 0x0c _ _ _ (by decide)
        (by lt_enc [bodyReadRemoteVersionInformationComplete, octets_12_4 _ _ h.1, octets_12_4e _ h.1])
        (by lt_len [bodyReadRemoteVersionInformationComplete]) (by lt_len [])
    | acl j pb bc d => exact congrArg (Prod.mk 2) (acl_octets j pb bc d h.1 h.2.1 h.2.2.1 h.2.2.2)
    | completed j n => exact completed_octets j n h.1
  | sub j e => cases e with
    | subrateChange st f l c t =>
      obtain ⟨_, h1, h2, h3, h4, h5⟩ := h
      have h2 : f < 512 := by omega
      have h3 : l < 512 := by omega
      have h4 : c < 512 := by omega
      have h5 : t < 4096 := by omega
      exact subevent_octets 0x23 _ _ _ (by decide)
        (by lt_enc [bodyLeSubrateChange, octets_12_4 _ _ h1, octets_9_7 _ _ h2, octets_9_7 _ _ h3, octets_9_7 _ _ h4, octets_12_4e _ h5])
        (by lt_len [bodyLeSubrateChange]) (by lt_len [])
    | paramRequest x y l t =>
      exact subevent_octets 0x06 _ _ _ (by decide)
        (by lt_enc [bodyLeRemoteConnectionParameterRequest, octets_12_4 _ _ h.1, octets_12_4e _ h.1])
        (by lt_len [bodyLeRemoteConnectionParameterRequest]) (by lt_len [])
    | updateComplete st i l t =>
      exact subevent_octets 0x03 _ _ _ (by decide)
        (by lt_enc [bodyLeConnectionUpdateComplete, octets_12_4 _ _ h.2.1, octets_12_4e _ h.2.1])
        (by lt_len [bodyLeConnectionUpdateComplete]) (by lt_len [])

/-- A host that reads the octets by the core specification gets the event. -/
theorem C131_hears (e : Tell) (h : Tellable e) : hears (told e) = some e := by
  cases e with
  | link e => cases e with
    | phyDone j tx rx =>
      have hk : j < 65536 := Nat.lt_trans h (by decide)
      refine (hears_subevent _ _ (by lt_len [])).trans ?_
      lt_get [Nat.mod_eq_of_lt hk]
    | ltkRequest j x e =>
      obtain ⟨h1, h2, h3⟩ := h
      have hk : j < 65536 := by omega
      refine (hears_subevent _ _ (by lt_len []; omega)).trans ?_
      have ht : (x.map UInt8.toNat ++ le 2 e).take 8 = x.map UInt8.toNat := List.take_left' (by rw [List.length_map, h2])
      have hd : (x.map UInt8.toNat ++ le 2 e).drop 8 = le 2 e := List.drop_left' (by rw [List.length_map, h2])
      lt_get [Nat.mod_eq_of_lt hk, Nat.mod_eq_of_lt h3, ht, hd]
    | encChange st j b =>
      have hk : j < 65536 := Nat.lt_trans h.2 (by decide)
      refine (hears_event _ _ (by lt_len [])).trans ?_
      lt_get [Nat.mod_eq_of_lt hk, Nat.mod_eq_of_lt h.1]
    | encChangeV2 st j b =>
      have hk : j < 65536 := Nat.lt_trans h.2 (by decide)
      refine (hears_event _ _ (by lt_len [])).trans ?_
      lt_get [Nat.mod_eq_of_lt hk, Nat.mod_eq_of_lt h.1]
    | keyRefresh st j =>
      have hk : j < 65536 := Nat.lt_trans h.2 (by decide)
      refine (hears_event _ _ (by lt_len [])).trans ?_
      lt_get [Nat.mod_eq_of_lt hk, Nat.mod_eq_of_lt h.1]
    | features st j f =>
      have hk : j < 65536 := Nat.lt_trans h.2.1 (by decide)
      refine (hears_subevent _ _ (by lt_len [])).trans ?_
      lt_get [Nat.mod_eq_of_lt hk, Nat.mod_eq_of_lt h.1, Nat.mod_eq_of_lt h.2.2]
    | version j v c s =>
      have hk : j < 65536 := Nat.lt_trans h.1 (by decide)
      refine (hears_event _ _ (by lt_len [])).trans ?_
      lt_get [Nat.mod_eq_of_lt hk, Nat.mod_eq_of_lt h.2.1, Nat.mod_eq_of_lt h.2.2.1, Nat.mod_eq_of_lt h.2.2.2]
    | acl k pb bc d =>
      obtain ⟨h1, h2, h3, h4⟩ := h
      have e1 : k + 4096 * pb + 16384 * bc < 65536 := by omega
      have e2 : (k + 4096 * pb + 16384 * bc) % 4096 = k := by omega
      have e3 : (k + 4096 * pb + 16384 * bc) / 4096 % 4 = pb := by omega
      have e4 : (k + 4096 * pb + 16384 * bc) / 16384 = bc := by omega
      simp [hears, told, get_le, bytes_of, Nat.mod_eq_of_lt e1, Nat.mod_eq_of_lt h4, e2, e3, e4]
    | completed j n =>
      have hk : j < 65536 := Nat.lt_trans h.1 (by decide)
      refine (hears_event _ _ (by lt_len [])).trans ?_
      lt_get [Nat.mod_eq_of_lt hk, Nat.mod_eq_of_lt h.2]
  | sub j e => cases e with
    | subrateChange st f l c t =>
      obtain ⟨h0, h1, h2, h3, h4, h5⟩ := h
      have hk : j < 65536 := by omega
      have h2 : f < 65536 := by omega
      have h3 : l < 65536 := by omega
      have h4 : c < 65536 := by omega
      have h5 : t < 65536 := by omega
      refine (hears_subevent _ _ (by lt_len [])).trans ?_
      lt_get [Nat.mod_eq_of_lt hk, Nat.mod_eq_of_lt h2, Nat.mod_eq_of_lt h3, Nat.mod_eq_of_lt h4, Nat.mod_eq_of_lt h5,
        Nat.mod_eq_of_lt (ofReason_lt st h0), statusOf_of st h0]
    | paramRequest x y l t =>
      obtain ⟨h1, h2, h3, h4, h5⟩ := h
      have hk : j < 65536 := by omega
      refine (hears_subevent _ _ (by lt_len [])).trans ?_
      lt_get [Nat.mod_eq_of_lt hk, Nat.mod_eq_of_lt h2, Nat.mod_eq_of_lt h3, Nat.mod_eq_of_lt h4, Nat.mod_eq_of_lt h5]
    | updateComplete st i l t =>
      obtain ⟨h0, h1, h2, h3, h4⟩ := h
      have hk : j < 65536 := by omega
      refine (hears_subevent _ _ (by lt_len [])).trans ?_
      lt_get [Nat.mod_eq_of_lt hk, Nat.mod_eq_of_lt h2, Nat.mod_eq_of_lt h3, Nat.mod_eq_of_lt h4,
        Nat.mod_eq_of_lt (ofReason_lt st h0), statusOf_of st h0]

/-- The host gets the event. -/
theorem C131_told (e : Tell) (h : Tellable e) : hears (toHost e) = some e := by
  rw [C131_octets e h, C131_hears e h]

/-- Events with the same octets are the same. -/
theorem C131_distinct (e f : Tell) (he : Tellable e) (hf : Tellable f) (h : toHost e = toHost f) : e = f := by
  have h1 := C131_told e he
  rw [h, C131_told f hf] at h1
  exact (Option.some.inj h1).symm

/-- Everything the host is sent is read, in order. -/
theorem C131_all (l : List Tell) (h : ∀ e ∈ l, Tellable e) : (l.map toHost).map hears = l.map some := by
  rw [List.map_map]
  exact List.map_congr_left (fun e he => C131_told e (h e he))

/-- Whatever a command of the host (C130) makes the controller tell, the host reads from the octets. -/
theorem C131_commands (u : Unused) (s : Ctl) (c : Call) (d : Did) (h : Sendable u c) (hr : perform s c = some d) :
    ((tells d).map toHost).map hears = (tells d).map some :=
  C131_all _ (perform_tellable u s c d h hr)

/-- LE PHY Update Complete of connection 0x201: transmits on LE 2M, receives on LE 1M. -/
example : toHost (.link (.phyDone 0x201 .m2 .m1)) = (4, [0x3e, 6, 0x0c, 0x00, 0x01, 0x02, 0x02, 0x01]) :=
  C131_octets _ (by decide : (0x201 : Nat) < 4096)

/-- LE Subrate Change with factor 4, latency 2, continuation number 1 and a timeout of 2 s. -/
example : toHost (.sub 0x201 (.subrateChange .success 4 2 1 200)) =
    (4, [0x3e, 12, 0x23, 0x00, 0x01, 0x02, 4, 0, 2, 0, 1, 0, 200, 0]) :=
  C131_octets _ ⟨trivial, by decide, by decide, by decide, by decide, by decide⟩

/-- What one end sends is not what the other receives: the PHYs are told apart. -/
example : toHost (.link (.phyDone 0x201 .m2 .m1)) ≠ toHost (.link (.phyDone 0x201 .m1 .m2)) := by
  intro h
  have := C131_distinct (.link (.phyDone 0x201 .m2 .m1)) (.link (.phyDone 0x201 .m1 .m2)) (by decide : (0x201 : Nat) < 4096) (by decide : (0x201 : Nat) < 4096) h
  revert this; decide

end Verif.WireLink
