import Verif.WireLe.Lemmas

/-!
# C129: the host can tell from the octets what happened on LE

**C129.** The events of the LE controller (advertising reports of all kinds, synchronizations, connections, the end of advertising,
of scanning and of connections, completed packets) and its data are written as the core specification lays them out: a host that
reads the octets by the core specification learns everything the event says, so two events with the same octets say the same. The
reports of an advertisement of any length fit their events, and the host gets the whole advertisement back from them.

The events are those of `Ll`; the octets are written by the layouts of hci_packets.pdl (`C129_layouts`) and read by `hears` of
`Spec.lean`, written from the core specification. The values have to fit their octets (`Tellable`).
-/
namespace Verif.WireLe

open Verif.Le Verif.Ll Verif.Pdl Verif.Pdl.Hci
open Verif.Wire (le yes ofType ofAddress le_length octets_12_4 octets_12_4e)
open Verif.WireBr (ofEvent get bytes event_octets get_le bytes_of)

/-- The codes and layouts of the subevents. -/
def subeventLayouts : List (Nat × Fmt) := [
  (0x01, bodyLeConnectionComplete), (0x02, bodyLeAdvertisingReport),
  (0x0a, bodyLeEnhancedConnectionCompleteV1), (0x0b, bodyLeDirectedAdvertisingReport),
  (0x0d, bodyLeExtendedAdvertisingReport), (0x0e, bodyLePeriodicAdvertisingSyncEstablishedV1),
  (0x0f, bodyLePeriodicAdvertisingReportV1), (0x11, bodyLeScanTimeout),
  (0x12, bodyLeAdvertisingSetTerminated), (0x14, bodyLeChannelSelectionAlgorithm)]

/-- The layouts are declared in hci_packets.pdl, each with its code. -/
theorem C129_layouts : ∀ e ∈ subeventLayouts, ∃ name,
    (⟨name, [⟨bodyEvent, [(0, 62)]⟩, ⟨bodyLeMetaEvent, [(0, e.1)]⟩, ⟨e.2, []⟩]⟩ : Pdl.Packet) ∈ packetsEvent := by
  intro e he
  simp only [subeventLayouts, List.mem_cons, List.not_mem_nil, or_false] at he
  rcases he with rfl | rfl | rfl | rfl | rfl | rfl | rfl | rfl | rfl | rfl
  · exact ⟨"LeConnectionComplete", List.mem_of_getElem? (i := 343) rfl⟩
  · exact ⟨"LeAdvertisingReport", List.mem_of_getElem? (i := 344) rfl⟩
  · exact ⟨"LeEnhancedConnectionCompleteV1", List.mem_of_getElem? (i := 351) rfl⟩
  · exact ⟨"LeDirectedAdvertisingReport", List.mem_of_getElem? (i := 353) rfl⟩
  · exact ⟨"LeExtendedAdvertisingReport", List.mem_of_getElem? (i := 355) rfl⟩
  · exact ⟨"LePeriodicAdvertisingSyncEstablishedV1", List.mem_of_getElem? (i := 356) rfl⟩
  · exact ⟨"LePeriodicAdvertisingReportV1", List.mem_of_getElem? (i := 358) rfl⟩
  · exact ⟨"LeScanTimeout", List.mem_of_getElem? (i := 361) rfl⟩
  · exact ⟨"LeAdvertisingSetTerminated", List.mem_of_getElem? (i := 362) rfl⟩
  · exact ⟨"LeChannelSelectionAlgorithm", List.mem_of_getElem? (i := 364) rfl⟩

/-- What the controller sends has the octets of the core specification. -/
theorem C129_octets (x : Extra) (o : Out) (h : Tellable o) : toHost x o = told x.rssi x.power x.enhanced x.pub x.random o := by
  cases o with
  | directedReport a d => simp only [toHost, told, typeCode_of]; exact congrArg some (directed_octets ..)
  | legacyReport t a d => simp only [toHost, told, typeCode_of, reportCode_of]; exact congrArg some (legacy_octets _ _ _ _ _ h)
  | extReport r =>
    simp only [toHost, told, ← direct_of, typeCode_of, phyCode_of]
    exact congrArg some (ext_octets _ _ _ _ _ _ _ _ _ _ _ _ _ _ _ _ _ h.2.2)
  | scanTimeout => exact congrArg some (subevent_octets 0x11 _ _ _ (by decide) rfl rfl (by decide))
  | syncEstablished k sid a i =>
    exact congrArg some (subevent_octets 0x0e _ _ _ (by decide)
      (by le_enc [bodyLePeriodicAdvertisingSyncEstablishedV1, octets_12_4 _ _ h.1])
      (by le_len [bodyLePeriodicAdvertisingSyncEstablishedV1]) (by le_len []))
  | periodicReport k c d => exact congrArg some (periodic_octets _ _ _ _ _ h.1 h.2)
  | connected k c =>
    simp only [toHost, told]
    cases x.enhanced with
    | true => exact congrArg some (subevent_octets 0x0a _ _ _ (by decide)
        (by le_enc [bodyLeEnhancedConnectionCompleteV1, octets_12_4 _ _ h.1])
        (by le_len [bodyLeEnhancedConnectionCompleteV1]) (by le_len []))
    | false => exact congrArg some (subevent_octets 0x01 _ _ _ (by decide)
        (by le_enc [bodyLeConnectionComplete, octets_12_4 _ _ h.1])
        (by le_len [bodyLeConnectionComplete]) (by le_len []))
  | channelSelection k =>
    exact congrArg some (subevent_octets 0x14 _ _ _ (by decide) (by le_enc [bodyLeChannelSelectionAlgorithm, octets_12_4 _ _ h])
      (by le_len [bodyLeChannelSelectionAlgorithm]) (by le_len []))
  | setTerminated a k n => cases k with
    | some k => exact congrArg some (subevent_octets 0x12 _ _ _ (by decide)
        (by le_enc [bodyLeAdvertisingSetTerminated, octets_12_4 k _ (show k < 4096 from h.1)])
        (by le_len [bodyLeAdvertisingSetTerminated]) (by le_len []))
    | none => exact congrArg some (subevent_octets 0x12 _ _ _ (by decide)
        (by le_enc [bodyLeAdvertisingSetTerminated, octets_12_4 0 _ (by decide), le])
        (by le_len [bodyLeAdvertisingSetTerminated]) (by le_len []))
  | directedTimeout =>
    simp only [toHost, told]
    cases x.enhanced with
    | true => exact congrArg some (subevent_octets 0x0a _ _ _ (by decide)
        (by le_enc [bodyLeEnhancedConnectionCompleteV1, octets_12_4 0 _ (by decide), le, List.replicate])
        (by le_len [bodyLeEnhancedConnectionCompleteV1]) (by le_len []))
    | false => exact congrArg some (subevent_octets 0x01 _ _ _ (by decide)
        (by le_enc [bodyLeConnectionComplete, octets_12_4 0 _ (by decide), le, List.replicate])
        (by le_len [bodyLeConnectionComplete]) (by le_len []))
  | acl k pb bc d =>
    obtain ⟨h1, h2, h3, h4⟩ := h
    exact congrArg (fun l => some (2, l)) (WireBr.acl_octets k pb bc d h1 h2 h3 h4)
  | completedPackets k => exact congrArg some (WireBr.completed_octets k 1 h)
  | disconnected k r =>
    exact congrArg some (event_octets 5 _ _ _ (by decide) (by le_enc [bodyDisconnectionComplete, octets_12_4 _ _ h.1])
      (by le_len [bodyDisconnectionComplete]) (by le_len []))
  | dispatched => rfl
  | send => rfl

/-- A host that reads the octets by the core specification learns what the event says. -/
theorem C129_hears (rssi power : Nat) (enhanced : Bool) (pub random : Address) (o : Out) (h : Tellable o) :
    (told rssi power enhanced pub random o).bind hears = learns enhanced pub random o := by
  cases o with
  | directedReport a d =>
    simp only [told, Option.bind_some, if_true, Bool.false_eq_true, if_false]
    rw [hears_subevent]
    · le_get []
    · le_len []
  | legacyReport t a d =>
    have h : d.length ≤ 243 := h
    simp only [told, Option.bind_some, if_true, Bool.false_eq_true, if_false]
    rw [hears_subevent]
    · le_get [getData_of _ _ (show d.length < 256 by omega)]
    · le_len []; omega
  | extReport r =>
    obtain ⟨h1, h2, h3⟩ := h
    have hd : (ofDirect r.direct).length = 7 := by cases r.direct <;> le_len [ofDirect]
    obtain ⟨k0, k1, k2, k3, k4, k5, k6⟩ := kind_of r
    simp only [told, Option.bind_some, if_true, Bool.false_eq_true, if_false]
    rw [hears_subevent, ext_get _ _ _ _ _ _ _ _ _ _ k0 h1 h2 (show r.data.length < 256 by omega), k1, k2, k3, k4, k5, k6]
    · rfl
    · le_len [hd]; omega
  | scanTimeout => rfl
  | syncEstablished k sid a i =>
    obtain ⟨h1, h2, h3⟩ := h
    have hk : k < 65536 := by omega
    simp only [told, Option.bind_some, if_true, Bool.false_eq_true, if_false]
    rw [hears_subevent]
    · le_get [Nat.mod_eq_of_lt hk, Nat.mod_eq_of_lt h2, Nat.mod_eq_of_lt h3]
    · le_len []
  | periodicReport k c d =>
    obtain ⟨h1, h2⟩ := h
    have hk : k < 65536 := by omega
    simp only [told, Option.bind_some, if_true, Bool.false_eq_true, if_false]
    rw [hears_subevent]
    · cases c <;> le_get [getData_end _ (show d.length < 256 by omega), get_power3, Nat.mod_eq_of_lt hk, yes]
    · le_len []; omega
  | connected k c =>
    obtain ⟨h1, h2, h3, h4⟩ := h
    have hk : k < 65536 := by omega
    cases enhanced with
    | true =>
      simp only [told, Option.bind_some, if_true, Bool.false_eq_true, if_false]
      rw [hears_subevent]
      · le_get [getParams_of _ h2 h3 h4, Nat.mod_eq_of_lt hk]
      · le_len []
    | false =>
      simp only [told, Option.bind_some, if_true, Bool.false_eq_true, if_false]
      rw [hears_subevent]
      · le_get [getParams_of _ h2 h3 h4, Nat.mod_eq_of_lt hk]
      · le_len []
  | channelSelection k =>
    have h : k < 4096 := h
    simp only [told, Option.bind_some, if_true, Bool.false_eq_true, if_false]
    rw [hears_subevent]
    · le_get [Nat.mod_eq_of_lt (show k < 65536 by omega)]
    · le_len []
  | setTerminated a k n =>
    obtain ⟨h1, h2⟩ := h
    have ha : a.toNat < 256 := a.toNat_lt
    cases k with
    | some k =>
      have h1 : k < 4096 := h1
      simp only [told, Option.bind_some, if_true, Bool.false_eq_true, if_false]
      rw [hears_subevent]
      · le_get [Nat.mod_eq_of_lt (show k < 65536 by omega), Nat.mod_eq_of_lt h2, Nat.mod_eq_of_lt ha]
      · le_len []
    | none =>
      simp only [told, Option.bind_some, if_true, Bool.false_eq_true, if_false]
      rw [hears_subevent]
      · le_get [Nat.mod_eq_of_lt h2, Nat.mod_eq_of_lt ha]
      · le_len []
  | directedTimeout => cases enhanced <;> rfl
  | acl k pb bc d =>
    obtain ⟨h1, h2, h3, h4⟩ := h
    have e1 : k + 4096 * pb + 16384 * bc < 65536 := by omega
    have e2 : (k + 4096 * pb + 16384 * bc) % 4096 = k := by omega
    have e3 : (k + 4096 * pb + 16384 * bc) / 4096 % 4 = pb := by omega
    have e4 : (k + 4096 * pb + 16384 * bc) / 16384 = bc := by omega
    simp [hears, told, learns, get_le, bytes_of, Nat.mod_eq_of_lt e1, Nat.mod_eq_of_lt h4, e2, e3, e4]
  | completedPackets k =>
    have h : k < 4096 := h
    simp only [told, Option.bind_some, if_true, Bool.false_eq_true, if_false]
    rw [hears_event]
    · le_get [Nat.mod_eq_of_lt (show k < 65536 by omega)]
    · le_len []
  | disconnected k r =>
    obtain ⟨h1, h2⟩ := h
    simp only [told, Option.bind_some, if_true, Bool.false_eq_true, if_false]
    rw [hears_event]
    · le_get [Nat.mod_eq_of_lt (show k < 65536 by omega), Nat.mod_eq_of_lt h2]
    · le_len []
  | dispatched => rfl
  | send => rfl

/-- The host learns what the controller says. -/
theorem C129_told (x : Extra) (o : Out) (h : Tellable o) : (toHost x o).bind hears = learns x.enhanced x.pub x.random o := by
  rw [C129_octets x o h, C129_hears _ _ _ _ _ _ h]

/-- Everything but packets to the air and to the link layer is sent to the host. -/
theorem C129_silent (x : Extra) (o : Out) : toHost x o = none ↔ (∃ p, o = .send p) ∨ ∃ k t p, o = .dispatched k t p := by
  cases o with
  | setTerminated a k n => cases k <;> simp [toHost]
  | _ => simp [toHost]

/-- Events with the same octets say the same. -/
theorem C129_distinct (x y : Extra) (o p : Out) (ho : Tellable o) (hp : Tellable p) (h : toHost x o = toHost y p) :
    learns x.enhanced x.pub x.random o = learns y.enhanced y.pub y.random p := by
  rw [← C129_told x o ho, ← C129_told y p hp, h]

/-- Different advertising reports never have the same octets. -/
theorem C129_reports (x y : Extra) (r s : ExtReport) (hr : Tellable (.extReport r)) (hs : Tellable (.extReport s))
    (h : toHost x (.extReport r) = toHost y (.extReport s)) : r = s := by
  have := C129_distinct x y _ _ hr hs h
  simpa [learns] using this

/-- The reports of an advertisement of any length fit their events. -/
theorem C129_fit (p : ExtPdu) (r : AddressWithType) (h1 : p.sid < 256) (h2 : p.interval < 65536) :
    ∀ o ∈ extReports p r, Tellable o := by
  intro o ho
  obtain ⟨f, hf, rfl⟩ := List.mem_map.mp ho
  exact ⟨h1, h2, (fragments_whole 229 (by decide) p.data).short f hf⟩

/-- The host gets the whole advertisement back from the octets of its reports. -/
theorem C129_whole (x : Extra) (p : ExtPdu) (r : AddressWithType) (h1 : p.sid < 256) (h2 : p.interval < 65536) :
    heardData ((extReports p r).map fun o => (toHost x o).bind hears) = p.data := by
  have hm : (extReports p r).map (fun o => (toHost x o).bind hears) =
      (extReports p r).map (fun o => learns x.enhanced x.pub x.random o) :=
    List.map_congr_left (fun o ho => C129_told x o (C129_fit p r h1 h2 o ho))
  rw [hm]
  have hd : ∀ l : List (Bool × List UInt8), heardData ((l.map fun f => Out.extReport { connectable := p.connectable, scannable := p.scannable, directed := p.directed, scanResponse := false, legacy := false, address := r, primary := p.primary, secondary := p.secondary, sid := p.sid, interval := p.interval, direct := if p.directed then some p.target else none, complete := f.1, data := f.2 }).map
      (fun o => learns x.enhanced x.pub x.random o)) = (l.map (·.2)).flatten := by
    intro l
    induction l with
    | nil => rfl
    | cons f l ih => exact congrArg (f.2 ++ ·) ih
  exact (hd _).trans ((fragments_whole 229 (by decide) p.data).concat)

/-- LE Connection Complete of a peripheral with the handle 0x201. -/
example : toHost ⟨0, 0, false, 0, 0⟩ (.connected 0x201
      ⟨⟨0x112233445566, .randomDevice⟩, ⟨1, .publicDevice⟩, ⟨0, .publicDevice⟩, .peripheral, ⟨24, 0, 72⟩⟩) =
    some (4, [0x3e, 19, 0x01, 0x00, 0x01, 0x02, 0x01, 0x01, 0x66, 0x55, 0x44, 0x33, 0x22, 0x11, 24, 0, 0, 0, 72, 0, 0]) :=
  C129_octets _ _ ⟨by decide, by decide, by decide, by decide⟩

/-- An advertisement of 500 octets is heard whole. -/
example : heardData ((extReports ⟨⟨7, .publicDevice⟩, ⟨0, .publicDevice⟩, true, false, false, 3, .le1m, .le2m, 0, List.replicate 500 9⟩
      ⟨7, .publicDevice⟩).map fun o => (toHost ⟨0x20, 0x7f, true, 0, 0⟩ o).bind hears) = List.replicate 500 9 :=
  C129_whole _ _ _ (by decide) (by decide)

end Verif.WireLe
