import Verif.WireBr.EventsLemmas

/-!
# C128: the host can tell from the octets what happened

**C128.** The events of the BR/EDR controller are written as the core specification lays them out: a host that reads the
  octets by
the core specification gets the event with all its values, so different events never have the same octets. The same holds for
ACL and synchronous data.

The events are those of `Br` and `Pol`; the octets are written by the layouts of hci_packets.pdl (`C128_layouts`) and read by
`hears` of `EventsSpec.lean`, written from the core specification. The values have to fit their octets (`Tellable`).
-/
namespace Verif.WireBr

open Verif.Pol Verif.Pdl Verif.Pdl.Hci Verif.Wire

/-- The codes and layouts of the events. -/
def eventLayouts : List (Nat × Fmt) := [
  (0x01, bodyInquiryComplete), (0x02, bodyInquiryResult),
  (0x03, bodyConnectionComplete), (0x04, bodyConnectionRequest),
  (0x05, bodyDisconnectionComplete), (0x07, bodyRemoteNameRequestComplete),
  (0x0b, bodyReadRemoteSupportedFeaturesComplete), (0x0c, bodyReadRemoteVersionInformationComplete),
  (0x0d, bodyQosSetupComplete), (0x12, bodyRoleChange),
  (0x13, bodyNumberOfCompletedPackets), (0x1d, bodyConnectionPacketTypeChanged),
  (0x22, bodyInquiryResultWithRssi), (0x23, bodyReadRemoteExtendedFeaturesComplete),
  (0x2c, bodySynchronousConnectionComplete), (0x2f, bodyExtendedInquiryResult),
  (0x3d, bodyRemoteHostSupportedFeaturesNotification)]

/-- The layouts are declared in hci_packets.pdl, each with its code. -/
theorem C128_layouts : ∀ e ∈ eventLayouts, ∃ name, (⟨name, [⟨bodyEvent, [(0, e.1)]⟩, ⟨e.2, []⟩]⟩ : Packet) ∈ packetsEvent := by
  intro e he
  simp only [eventLayouts, List.mem_cons, List.not_mem_nil, or_false] at he
  rcases he with rfl | rfl | rfl | rfl | rfl | rfl | rfl | rfl | rfl | rfl | rfl | rfl | rfl | rfl | rfl | rfl | rfl
  · exact ⟨"InquiryComplete", List.mem_of_getElem? (i := 291) rfl⟩
  · exact ⟨"InquiryResult", List.mem_of_getElem? (i := 292) rfl⟩
  · exact ⟨"ConnectionComplete", List.mem_of_getElem? (i := 293) rfl⟩
  · exact ⟨"ConnectionRequest", List.mem_of_getElem? (i := 294) rfl⟩
  · exact ⟨"DisconnectionComplete", List.mem_of_getElem? (i := 295) rfl⟩
  · exact ⟨"RemoteNameRequestComplete", List.mem_of_getElem? (i := 297) rfl⟩
  · exact ⟨"ReadRemoteSupportedFeaturesComplete", List.mem_of_getElem? (i := 302) rfl⟩
  · exact ⟨"ReadRemoteVersionInformationComplete", List.mem_of_getElem? (i := 303) rfl⟩
  · exact ⟨"QosSetupComplete", List.mem_of_getElem? (i := 304) rfl⟩
  · exact ⟨"RoleChange", List.mem_of_getElem? (i := 307) rfl⟩
  · exact ⟨"NumberOfCompletedPackets", List.mem_of_getElem? (i := 308) rfl⟩
  · exact ⟨"ConnectionPacketTypeChanged", List.mem_of_getElem? (i := 318) rfl⟩
  · exact ⟨"InquiryResultWithRssi", List.mem_of_getElem? (i := 322) rfl⟩
  · exact ⟨"ReadRemoteExtendedFeaturesComplete", List.mem_of_getElem? (i := 323) rfl⟩
  · exact ⟨"SynchronousConnectionComplete", List.mem_of_getElem? (i := 324) rfl⟩
  · exact ⟨"ExtendedInquiryResult", List.mem_of_getElem? (i := 327) rfl⟩
  · exact ⟨"RemoteHostSupportedFeaturesNotification", List.mem_of_getElem? (i := 340) rfl⟩

/-- What the controller sends has the octets of the core specification. -/
theorem C128_octets (x : Extra) (e : PEv) (hx : x.clock < 32768) (h : Tellable e) : toHost x e = told x.repetition x.clock e
  := by
  cases e with
  | base e => cases e with
    | connComplete st k a l =>
      obtain ⟨h1, h2, h3, h4⟩ := h
      exact event_octets 3 _ _ _ (by decide)
        (by ev_enc [bodyConnectionComplete, octets_12_4 _ _ h2, octets_12_4e _ h2])
        (by ev_len [bodyConnectionComplete]) (by ev_len [])
    | connRequest a cod l =>
      obtain ⟨h1, h2⟩ := h
      exact event_octets 4 _ _ _ (by decide)
        (by ev_enc [bodyConnectionRequest])
        (by ev_len [bodyConnectionRequest]) (by ev_len [])
    | roleChange st a r =>
      obtain ⟨h1, h2⟩ := h
      exact event_octets 18 _ _ _ (by decide)
        (by ev_enc [bodyRoleChange])
        (by ev_len [bodyRoleChange]) (by ev_len [])
    | disconnComplete k r =>
      obtain ⟨h1, h2⟩ := h
      exact event_octets 5 _ _ _ (by decide)
        (by ev_enc [bodyDisconnectionComplete, octets_12_4 _ _ h1, octets_12_4e _ h1])
        (by ev_len [bodyDisconnectionComplete]) (by ev_len [])
    | syncComplete st k a l i w rx tx air =>
      obtain ⟨h1, h2, h3, h4, h5, h6, h7, h8, h9⟩ := h
      exact event_octets 44 _ _ _ (by decide)
        (by ev_enc [bodySynchronousConnectionComplete, octets_12_4 _ _ h2, octets_12_4e _ h2])
        (by ev_len [bodySynchronousConnectionComplete]) (by ev_len [])
    | inqComplete =>
      exact event_octets 1 _ _ _ (by decide)
        (by ev_enc [bodyInquiryComplete])
        (by ev_len [bodyInquiryComplete]) (by ev_len [])
    | name a n =>
      obtain ⟨h1, h2⟩ := h
      exact name_octets a n h2
    | hostFeatures a f =>
      obtain ⟨h1, h2⟩ := h
      exact event_octets 61 _ _ _ (by decide)
        (by ev_enc [bodyRemoteHostSupportedFeaturesNotification])
        (by ev_len [bodyRemoteHostSupportedFeaturesNotification]) (by ev_len [])
    | features k f =>
      obtain ⟨h1, h2⟩ := h
      exact event_octets 11 _ _ _ (by decide)
        (by ev_enc [bodyReadRemoteSupportedFeaturesComplete, octets_12_4 _ _ h1, octets_12_4e _ h1])
        (by ev_len [bodyReadRemoteSupportedFeaturesComplete]) (by ev_len [])
    | ext st k p m f =>
      obtain ⟨h1, h2, h3, h4, h5⟩ := h
      exact event_octets 35 _ _ _ (by decide)
        (by ev_enc [bodyReadRemoteExtendedFeaturesComplete, octets_12_4 _ _ h2, octets_12_4e _ h2])
        (by ev_len [bodyReadRemoteExtendedFeaturesComplete]) (by ev_len [])
    | version k v c s =>
      obtain ⟨h1, h2, h3, h4⟩ := h
      exact event_octets 12 _ _ _ (by decide)
        (by ev_enc [bodyReadRemoteVersionInformationComplete, octets_12_4 _ _ h1, octets_12_4e _ h1])
        (by ev_len [bodyReadRemoteVersionInformationComplete]) (by ev_len [])
    | completed k n =>
      obtain ⟨h1, h2⟩ := h
      exact completed_octets k n h1
    | inqResult t a cod rssi eir =>
      obtain ⟨h1, h2, h3, h4, h5⟩ := h
      match t, h1, h5 with
      | 0, _, _ =>
        exact result_octets x a cod hx
      | 1, _, _ =>
        exact rssi_octets x a cod rssi hx
      | 2, _, h5 =>
        exact eir_octets x a cod rssi eir hx (h5 rfl)
    | acl k pb bc d =>
      obtain ⟨h1, h2, h3, h4⟩ := h
      exact congrArg (Prod.mk 2) (acl_octets k pb bc d h1 h2 h3 h4)
    | sco k d =>
      obtain ⟨h1, h2⟩ := h
      exact congrArg (Prod.mk 3) (sco_octets k d h1 h2)
  | packetType st k t =>
    obtain ⟨h1, h2, h3⟩ := h
    exact event_octets 29 _ _ _ (by decide)
      (by ev_enc [bodyConnectionPacketTypeChanged, octets_12_4 _ _ h2, octets_12_4e _ h2])
      (by ev_len [bodyConnectionPacketTypeChanged]) (by ev_len [])
  | qos st k s r b l v =>
    obtain ⟨h1, h2, h3, h4, h5, h6, h7⟩ := h
    exact event_octets 13 _ _ _ (by decide)
      (by ev_enc [bodyQosSetupComplete, octets_12_4 _ _ h2, octets_12_4e _ h2])
      (by ev_len [bodyQosSetupComplete]) (by ev_len [])
  | power st k phy =>
    obtain ⟨h1, h2, h3⟩ := h
    exact power_octets x _ _ st k phy h2

/-- A host that reads the octets by the core specification gets the event. -/
theorem C128_hears (repetition clock : Nat) (e : PEv) (h : Tellable e) : hears (told repetition clock e) = some (seen e) := by
  cases e with
  | base e => cases e with
    | connComplete st k a l =>
      obtain ⟨h1, h2, h3, h4⟩ := h
      have hk : k < 65536 := by omega
      refine (hears_event _ _).trans ?_
      ev_get [Nat.mod_eq_of_lt h1, Nat.mod_eq_of_lt h3, Nat.mod_eq_of_lt hk]
    | connRequest a cod l =>
      obtain ⟨h1, h2⟩ := h
      refine (hears_event _ _).trans ?_
      ev_get [Nat.mod_eq_of_lt h1, Nat.mod_eq_of_lt h2]
    | roleChange st a r =>
      obtain ⟨h1, h2⟩ := h
      refine (hears_event _ _).trans ?_
      ev_get [Nat.mod_eq_of_lt h1, Nat.mod_eq_of_lt h2]
    | disconnComplete k r =>
      obtain ⟨h1, h2⟩ := h
      have hk : k < 65536 := by omega
      refine (hears_event _ _).trans ?_
      ev_get [Nat.mod_eq_of_lt h2, Nat.mod_eq_of_lt hk]
    | syncComplete st k a l i w rx tx air =>
      obtain ⟨h1, h2, h3, h4, h5, h6, h7, h8, h9⟩ := h
      have hk : k < 65536 := by omega
      refine (hears_event _ _).trans ?_
      ev_get [Nat.mod_eq_of_lt h1, Nat.mod_eq_of_lt h3, Nat.mod_eq_of_lt h5, Nat.mod_eq_of_lt h6, Nat.mod_eq_of_lt h7,
        Nat.mod_eq_of_lt h8, Nat.mod_eq_of_lt h9, Nat.mod_eq_of_lt hk]
    | inqComplete =>
      refine (hears_event _ _).trans ?_
      ev_get []
    | name a n =>
      obtain ⟨h1, h2⟩ := h
      refine (hears_event _ _).trans ?_
      ev_get [Nat.mod_eq_of_lt h1]
    | hostFeatures a f =>
      obtain ⟨h1, h2⟩ := h
      refine (hears_event _ _).trans ?_
      ev_get [Nat.mod_eq_of_lt h1, Nat.mod_eq_of_lt h2]
    | features k f =>
      obtain ⟨h1, h2⟩ := h
      have hk : k < 65536 := by omega
      refine (hears_event _ _).trans ?_
      ev_get [Nat.mod_eq_of_lt h2, Nat.mod_eq_of_lt hk]
    | ext st k p m f =>
      obtain ⟨h1, h2, h3, h4, h5⟩ := h
      have hk : k < 65536 := by omega
      refine (hears_event _ _).trans ?_
      ev_get [Nat.mod_eq_of_lt h1, Nat.mod_eq_of_lt h3, Nat.mod_eq_of_lt h4, Nat.mod_eq_of_lt h5, Nat.mod_eq_of_lt hk]
    | version k v c s =>
      obtain ⟨h1, h2, h3, h4⟩ := h
      have hk : k < 65536 := by omega
      refine (hears_event _ _).trans ?_
      ev_get [Nat.mod_eq_of_lt h2, Nat.mod_eq_of_lt h3, Nat.mod_eq_of_lt h4, Nat.mod_eq_of_lt hk]
    | completed k n =>
      obtain ⟨h1, h2⟩ := h
      have hk : k < 65536 := by omega
      refine (hears_event _ _).trans ?_
      ev_get [Nat.mod_eq_of_lt h2, Nat.mod_eq_of_lt hk]
    | inqResult t a cod rssi eir =>
      obtain ⟨h1, h2, h3, h4, h5⟩ := h
      match t, h1, h5 with
      | 0, _, _ =>
        refine (hears_event _ _).trans ?_
        ev_get [Nat.mod_eq_of_lt h2, Nat.mod_eq_of_lt h3]
      | 1, _, _ =>
        refine (hears_event _ _).trans ?_
        ev_get [Nat.mod_eq_of_lt h2, Nat.mod_eq_of_lt h3, Nat.mod_eq_of_lt h4]
      | 2, _, h5 =>
        refine (hears_event _ _).trans ?_
        ev_get [Nat.mod_eq_of_lt h2, Nat.mod_eq_of_lt h3, Nat.mod_eq_of_lt h4]
    | acl k pb bc d =>
      obtain ⟨h1, h2, h3, h4⟩ := h
      have e1 : k + 4096 * pb + 16384 * bc < 65536 := by omega
      have e2 : (k + 4096 * pb + 16384 * bc) % 4096 = k := by omega
      have e3 : (k + 4096 * pb + 16384 * bc) / 4096 % 4 = pb := by omega
      have e4 : (k + 4096 * pb + 16384 * bc) / 16384 = bc := by omega
      simp [hears, told, seen, get_le, bytes_of, Nat.mod_eq_of_lt e1, Nat.mod_eq_of_lt h4, e2, e3, e4]
    | sco k d =>
      obtain ⟨h1, h2⟩ := h
      have e1 : k < 65536 := by omega
      simp [hears, told, seen, get_le, bytes_of, Nat.mod_eq_of_lt e1, Nat.mod_eq_of_lt h2]
  | packetType st k t =>
    obtain ⟨h1, h2, h3⟩ := h
    have hk : k < 65536 := by omega
    refine (hears_event _ _).trans ?_
    ev_get [Nat.mod_eq_of_lt h1, Nat.mod_eq_of_lt h3, Nat.mod_eq_of_lt hk]
  | qos st k s r b l v =>
    obtain ⟨h1, h2, h3, h4, h5, h6, h7⟩ := h
    have hk : k < 65536 := by omega
    refine (hears_event _ _).trans ?_
    ev_get [Nat.mod_eq_of_lt h1, Nat.mod_eq_of_lt h3, Nat.mod_eq_of_lt h4, Nat.mod_eq_of_lt h5, Nat.mod_eq_of_lt h6,
      Nat.mod_eq_of_lt h7, Nat.mod_eq_of_lt hk]
  | power st k phy =>
    obtain ⟨h1, h2, h3⟩ := h
    have hk : k < 65536 := by omega
    refine (hears_event _ _).trans ?_
    ev_get [Nat.mod_eq_of_lt h1, Nat.mod_eq_of_lt hk, Nat.mod_eq_of_lt h3]

/-- The host gets the event. -/
theorem C128_told (x : Extra) (e : PEv) (hx : x.clock < 32768) (h : Tellable e) : hears (toHost x e) = some (seen e) := by
  rw [C128_octets x e hx h, C128_hears _ _ _ h]

/-- Different events have different octets. -/
theorem C128_distinct (x y : Extra) (e f : PEv) (hx : x.clock < 32768) (hy : y.clock < 32768) (he : Tellable e) (hf :
  Tellable f)
    (h : toHost x e = toHost y f) : seen e = seen f := by
  have h1 := C128_told x e hx he
  rw [h, C128_told y f hy hf] at h1
  exact (Option.some.inj h1).symm

/-- Everything the host is sent is read, in order. -/
theorem C128_all (x : Extra) (l : List PEv) (hx : x.clock < 32768) (h : ∀ e ∈ l, Tellable e) :
    (l.map (toHost x)).map hears = (l.map seen).map some := by
  simp only [List.map_map]
  exact List.map_congr_left (fun e he => C128_told x e hx (h e he))

/-- Connection Complete of an ACL connection with the handle 0x042: the octets of the HCI event. -/
example : toHost ⟨0, 0⟩ (.base (.connComplete 0 0x042 0x112233445566 .acl)) =
    (4, [0x03, 11, 0x00, 0x42, 0x00, 0x66, 0x55, 0x44, 0x33, 0x22, 0x11, 0x01, 0x00]) :=
  C128_octets _ _ (by decide) ⟨by decide, by decide, by decide, by decide⟩

/-- A role change to peripheral is not taken for one to central. -/
example : toHost ⟨0, 0⟩ (.base (.roleChange 0 7 .central)) ≠ toHost ⟨0, 0⟩ (.base (.roleChange 0 7 .peripheral)) := by
  intro h
  have := C128_distinct ⟨0, 0⟩ ⟨0, 0⟩ (.base (.roleChange 0 7 .central)) (.base (.roleChange 0 7 .peripheral)) (by decide)
    (by decide) ⟨by decide, by decide⟩ ⟨by decide, by decide⟩ h
  revert this; decide

end Verif.WireBr
