import Verif.Wire.Lemmas

/-!
# The handlers read the octets of the commands
-/
namespace Verif.Wire

open Verif.Le Verif.Pdl Verif.Pdl.Hci

/-- The values fit their fields. -/
macro "wire_fits" "[" t:Lean.Parser.Tactic.simpLemma,* "]" : tactic => `(tactic|
  simp [fits, address_lt, yes_lt, yes_lt8, ofAdvPolicy_lt, fits_props, ofPeer_lt, ofType_lt, ofOwn_lt, ofFal_lt, ofAdv_lt,
    ofScanPolicy_lt, ofInit_lt, ofPrivacy_lt, ofPrimary_lt, ofSecondary_lt, ofDuplicates_lt, ofScan_lt, octet_lt, $t,*])

/-- The octets of the fields. -/
macro "wire_enc" "[" t:Lean.Parser.Tactic.simpLemma,* "]" : tactic => `(tactic|
  simp [enc, parameters, ofAddress, octets, octets_bits8, octets_16, octets_24, octets_48, octets_8e, octets_16e, octets_48e, mod8,
    ofPeer_lt, ofType_lt, ofOwn_lt, ofFal_lt, ofAdv_lt, ofScanPolicy_lt, ofInit_lt, ofPrivacy_lt, ofPrimary_lt, ofSecondary_lt,
    ofDuplicates_lt, ofScan_lt, yes_lt8, octet_lt, $t,*])

/-- What is handed to the controller. -/
macro "wire_call" : tactic => `(tactic|
  simp [address_of, peerType_of, addressType_of, ownType_of, falType_of, advType_of, advPolicy_of, scanPolicy_of, initPolicy_of,
    privacy_of, primary_of, secondary_of, duplicates_of, scanType_of, enabled_of, properties_of])

theorem read_setRandomAddress (u : Unused) (a : Address) (hl : (parameters u (.setRandomAddress a)).length < 256) :
    leSetRandomAddress (octetsOf u (.setRandomAddress a)) = some (.setRandomAddress a) := by
  have hf : fits bodyLeSetRandomAddress (a.toNat, ()) 0 = true := by
    wire_fits [bodyLeSetRandomAddress]
  have he : octets (enc bodyLeSetRandomAddress (a.toNat, ()) []) = parameters u (.setRandomAddress a) := by
    wire_enc [bodyLeSetRandomAddress, octets_1_1_6, octets_6_1_9e]
  have hread := fields_of 0x2005 bodyLeSetRandomAddress _ _ (by decide) (by decide) (by decide) hf he hl
  refine (congrArg (fun o => Option.bind o _) hread).trans ?_
  show ((fun ((a, _) : Nat × Unit) => some (.setRandomAddress (BitVec.ofNat 48 a))) (a.toNat, ()) : Option Cmd) = some (.setRandomAddress a)
  wire_call

theorem read_setRpaTimeout (u : Unused) (t : Nat) (h1 : t < 65536) (hl : (parameters u (.setRpaTimeout t)).length < 256) :
    leSetRpaTimeout (octetsOf u (.setRpaTimeout t)) = some (.setRpaTimeout t) := by
  have hf : fits bodyLeSetResolvablePrivateAddressTimeout (t, ()) 0 = true := by
    wire_fits [bodyLeSetResolvablePrivateAddressTimeout, h1]
  have he : octets (enc bodyLeSetResolvablePrivateAddressTimeout (t, ()) []) = parameters u (.setRpaTimeout t) := by
    wire_enc [bodyLeSetResolvablePrivateAddressTimeout, octets_1_1_6, octets_6_1_9e]
  have hread := fields_of 0x202e bodyLeSetResolvablePrivateAddressTimeout _ _ (by decide) (by decide) (by decide) hf he hl
  refine (congrArg (fun o => Option.bind o _) hread).trans ?_
  show ((fun ((t, _) : Nat × Unit) => some (.setRpaTimeout t)) (t, ()) : Option Cmd) = some (.setRpaTimeout t)
  wire_call

theorem read_removeResolving (u : Unused) (t : PeerAddressType) (a : Address) (hl : (parameters u (.removeResolving t
    a)).length < 256) : leRemoveResolving (octetsOf u (.removeResolving t a)) = some (.removeResolving t a) := by
  have hf : fits bodyLeRemoveDeviceFromResolvingList (ofPeer t, a.toNat, ()) 0 = true := by
    wire_fits [bodyLeRemoveDeviceFromResolvingList]
  have he : octets (enc bodyLeRemoveDeviceFromResolvingList (ofPeer t, a.toNat, ()) []) = parameters u (.removeResolving t a)
      := by
    wire_enc [bodyLeRemoveDeviceFromResolvingList, octets_1_1_6, octets_6_1_9e]
  have hread := fields_of 0x2028 bodyLeRemoveDeviceFromResolvingList _ _ (by decide) (by decide) (by decide) hf he hl
  refine (congrArg (fun o => Option.bind o _) hread).trans ?_
  show ((fun ((t, a, _) : Nat × Nat × Unit) => (peerType t).bind fun t => some (.removeResolving t (BitVec.ofNat 48 a))) (ofPeer t, a.toNat, ()) : Option Cmd) = some (.removeResolving t a)
  wire_call

theorem read_clearResolving (u : Unused) (hl : (parameters u (.clearResolving)).length < 256) : leClearResolving (octetsOf u
    (.clearResolving)) = some (.clearResolving) := by
  have hf : fits bodyLeClearResolvingList () 0 = true := by
    wire_fits [bodyLeClearResolvingList]
  have he : octets (enc bodyLeClearResolvingList () []) = parameters u (.clearResolving) := by
    wire_enc [bodyLeClearResolvingList, octets_1_1_6, octets_6_1_9e]
  have hread := fields_of 0x2029 bodyLeClearResolvingList _ _ (by decide) (by decide) (by decide) hf he hl
  refine (congrArg (fun o => Option.bind o _) hread).trans ?_
  show ((fun (_ : Unit) => some .clearResolving) () : Option Cmd) = some (.clearResolving)
  wire_call

theorem read_setAddressResolutionEnable (u : Unused) (e : Bool) (hl : (parameters u (.setAddressResolutionEnable e)).length <
    256) : leSetAddressResolutionEnable (octetsOf u (.setAddressResolutionEnable e)) = some (.setAddressResolutionEnable e) :=
    by
  have hf : fits bodyLeSetAddressResolutionEnable (yes e, ()) 0 = true := by
    wire_fits [bodyLeSetAddressResolutionEnable]
  have he : octets (enc bodyLeSetAddressResolutionEnable (yes e, ()) []) = parameters u (.setAddressResolutionEnable e) := by
    wire_enc [bodyLeSetAddressResolutionEnable, octets_1_1_6, octets_6_1_9e]
  have hread := fields_of 0x202d bodyLeSetAddressResolutionEnable _ _ (by decide) (by decide) (by decide) hf he hl
  refine (congrArg (fun o => Option.bind o _) hread).trans ?_
  show ((fun ((e, _) : Nat × Unit) => some (.setAddressResolutionEnable (enabled e))) (yes e, ()) : Option Cmd) = some (.setAddressResolutionEnable e)
  wire_call

theorem read_setPrivacyMode (u : Unused) (t : PeerAddressType) (a : Address) (m : PrivacyMode) (hl : (parameters u
    (.setPrivacyMode t a m)).length < 256) : leSetPrivacyMode (octetsOf u (.setPrivacyMode t a m)) = some (.setPrivacyMode t a
    m) := by
  have hf : fits bodyLeSetPrivacyMode (ofPeer t, a.toNat, ofPrivacy m, ()) 0 = true := by
    wire_fits [bodyLeSetPrivacyMode]
  have he : octets (enc bodyLeSetPrivacyMode (ofPeer t, a.toNat, ofPrivacy m, ()) []) = parameters u (.setPrivacyMode t a m)
      := by
    wire_enc [bodyLeSetPrivacyMode, octets_1_1_6, octets_6_1_9e]
  have hread := fields_of 0x204e bodyLeSetPrivacyMode _ _ (by decide) (by decide) (by decide) hf he hl
  refine (congrArg (fun o => Option.bind o _) hread).trans ?_
  show ((fun ((t, a, m, _) : Nat × Nat × Nat × Unit) =>
    (peerType t).bind fun t => (privacy m).bind fun m => some (.setPrivacyMode t (BitVec.ofNat 48 a) m)) (ofPeer t, a.toNat, ofPrivacy m, ()) : Option Cmd) = some (.setPrivacyMode t a m)
  wire_call

theorem read_clearFilterAccept (u : Unused) (hl : (parameters u (.clearFilterAccept)).length < 256) : leClearFilterAccept
    (octetsOf u (.clearFilterAccept)) = some (.clearFilterAccept) := by
  have hf : fits bodyLeClearFilterAcceptList () 0 = true := by
    wire_fits [bodyLeClearFilterAcceptList]
  have he : octets (enc bodyLeClearFilterAcceptList () []) = parameters u (.clearFilterAccept) := by
    wire_enc [bodyLeClearFilterAcceptList, octets_1_1_6, octets_6_1_9e]
  have hread := fields_of 0x2010 bodyLeClearFilterAcceptList _ _ (by decide) (by decide) (by decide) hf he hl
  refine (congrArg (fun o => Option.bind o _) hread).trans ?_
  show ((fun (_ : Unit) => some .clearFilterAccept) () : Option Cmd) = some (.clearFilterAccept)
  wire_call

theorem read_addFilterAccept (u : Unused) (t : FalAddressType) (a : Address) (hl : (parameters u (.addFilterAccept t
    a)).length < 256) : leAddFilterAccept (octetsOf u (.addFilterAccept t a)) = some (.addFilterAccept t a) := by
  have hf : fits bodyLeAddDeviceToFilterAcceptList (ofFal t, a.toNat, ()) 0 = true := by
    wire_fits [bodyLeAddDeviceToFilterAcceptList]
  have he : octets (enc bodyLeAddDeviceToFilterAcceptList (ofFal t, a.toNat, ()) []) = parameters u (.addFilterAccept t a) :=
      by
    wire_enc [bodyLeAddDeviceToFilterAcceptList, octets_1_1_6, octets_6_1_9e]
  have hread := fields_of 0x2011 bodyLeAddDeviceToFilterAcceptList _ _ (by decide) (by decide) (by decide) hf he hl
  refine (congrArg (fun o => Option.bind o _) hread).trans ?_
  show ((fun ((t, a, _) : Nat × Nat × Unit) => (falType t).bind fun t => some (.addFilterAccept t (BitVec.ofNat 48 a))) (ofFal t, a.toNat, ()) : Option Cmd) = some (.addFilterAccept t a)
  wire_call

theorem read_removeFilterAccept (u : Unused) (t : FalAddressType) (a : Address) (hl : (parameters u (.removeFilterAccept t
    a)).length < 256) : leRemoveFilterAccept (octetsOf u (.removeFilterAccept t a)) = some (.removeFilterAccept t a) := by
  have hf : fits bodyLeRemoveDeviceFromFilterAcceptList (ofFal t, a.toNat, ()) 0 = true := by
    wire_fits [bodyLeRemoveDeviceFromFilterAcceptList]
  have he : octets (enc bodyLeRemoveDeviceFromFilterAcceptList (ofFal t, a.toNat, ()) []) = parameters u (.removeFilterAccept
      t a) := by
    wire_enc [bodyLeRemoveDeviceFromFilterAcceptList, octets_1_1_6, octets_6_1_9e]
  have hread := fields_of 0x2012 bodyLeRemoveDeviceFromFilterAcceptList _ _ (by decide) (by decide) (by decide) hf he hl
  refine (congrArg (fun o => Option.bind o _) hread).trans ?_
  show ((fun ((t, a, _) : Nat × Nat × Unit) => (falType t).bind fun t => some (.removeFilterAccept t (BitVec.ofNat 48 a))) (ofFal t, a.toNat, ()) : Option Cmd) = some (.removeFilterAccept t a)
  wire_call

theorem read_addPeriodicAdvertiser (u : Unused) (e : PalEntry) (h1 : e.sid < 256) (hl : (parameters u (.addPeriodicAdvertiser
    e)).length < 256) : leAddPeriodicAdvertiser (octetsOf u (.addPeriodicAdvertiser e)) = some (.addPeriodicAdvertiser e) :=
    by
  have hf : fits bodyLeAddDeviceToPeriodicAdvertiserList (ofPeer e.type, e.address.toNat, e.sid, ()) 0 = true := by
    wire_fits [bodyLeAddDeviceToPeriodicAdvertiserList, h1]
  have he : octets (enc bodyLeAddDeviceToPeriodicAdvertiserList (ofPeer e.type, e.address.toNat, e.sid, ()) []) = parameters u
      (.addPeriodicAdvertiser e) := by
    wire_enc [bodyLeAddDeviceToPeriodicAdvertiserList, octets_1_1_6, octets_6_1_9e, mod8 h1]
  have hread := fields_of 0x2047 bodyLeAddDeviceToPeriodicAdvertiserList _ _ (by decide) (by decide) (by decide) hf he hl
  refine (congrArg (fun o => Option.bind o _) hread).trans ?_
  show ((fun ((t, a, sid, _) : Nat × Nat × Nat × Unit) =>
    (peerType t).bind fun t => some (.addPeriodicAdvertiser ⟨t, BitVec.ofNat 48 a, sid⟩)) (ofPeer e.type, e.address.toNat, e.sid, ()) : Option Cmd) = some (.addPeriodicAdvertiser e)
  wire_call

theorem read_removePeriodicAdvertiser (u : Unused) (e : PalEntry) (h1 : e.sid < 256) (hl : (parameters u
    (.removePeriodicAdvertiser e)).length < 256) : leRemovePeriodicAdvertiser (octetsOf u (.removePeriodicAdvertiser e)) =
    some (.removePeriodicAdvertiser e) := by
  have hf : fits bodyLeRemoveDeviceFromPeriodicAdvertiserList (ofPeer e.type, e.address.toNat, e.sid, ()) 0 = true := by
    wire_fits [bodyLeRemoveDeviceFromPeriodicAdvertiserList, h1]
  have he : octets (enc bodyLeRemoveDeviceFromPeriodicAdvertiserList (ofPeer e.type, e.address.toNat, e.sid, ()) []) =
      parameters u (.removePeriodicAdvertiser e) := by
    wire_enc [bodyLeRemoveDeviceFromPeriodicAdvertiserList, octets_1_1_6, octets_6_1_9e, mod8 h1]
  have hread := fields_of 0x2048 bodyLeRemoveDeviceFromPeriodicAdvertiserList _ _ (by decide) (by decide) (by decide) hf he hl
  refine (congrArg (fun o => Option.bind o _) hread).trans ?_
  show ((fun ((t, a, sid, _) : Nat × Nat × Nat × Unit) =>
    (peerType t).bind fun t => some (.removePeriodicAdvertiser ⟨t, BitVec.ofNat 48 a, sid⟩)) (ofPeer e.type, e.address.toNat, e.sid, ()) : Option Cmd) = some (.removePeriodicAdvertiser e)
  wire_call

theorem read_clearPeriodicAdvertiser (u : Unused) (hl : (parameters u (.clearPeriodicAdvertiser)).length < 256) :
    leClearPeriodicAdvertiser (octetsOf u (.clearPeriodicAdvertiser)) = some (.clearPeriodicAdvertiser) := by
  have hf : fits bodyLeClearPeriodicAdvertiserList () 0 = true := by
    wire_fits [bodyLeClearPeriodicAdvertiserList]
  have he : octets (enc bodyLeClearPeriodicAdvertiserList () []) = parameters u (.clearPeriodicAdvertiser) := by
    wire_enc [bodyLeClearPeriodicAdvertiserList, octets_1_1_6, octets_6_1_9e]
  have hread := fields_of 0x2049 bodyLeClearPeriodicAdvertiserList _ _ (by decide) (by decide) (by decide) hf he hl
  refine (congrArg (fun o => Option.bind o _) hread).trans ?_
  show ((fun (_ : Unit) => some .clearPeriodicAdvertiser) () : Option Cmd) = some (.clearPeriodicAdvertiser)
  wire_call

theorem read_createSync (u : Unused) (o : SyncOptions) (adv : PalEntry) (timeout cte : Nat) (h1 : u.skip < 65536) (h2 :
    adv.sid < 256) (h3 : timeout < 65536) (h4 : cte < 256) (hl : (parameters u (.createSync o adv timeout cte)).length < 256)
    : leCreateSync (octetsOf u (.createSync o adv timeout cte)) = some (.createSync o adv timeout cte) := by
  have hf : fits bodyLePeriodicAdvertisingCreateSync ((yes o.useList, yes o.disableReporting, yes o.duplicateFiltering, ()),
      adv.sid, ofPeer adv.type, adv.address.toNat, u.skip, timeout, cte, ()) 0 = true := by
    wire_fits [bodyLePeriodicAdvertisingCreateSync, structPeriodicAdvertisingOptions, h1, h2, h3, h4]
  have he : octets (enc bodyLePeriodicAdvertisingCreateSync ((yes o.useList, yes o.disableReporting, yes o.duplicateFiltering,
      ()), adv.sid, ofPeer adv.type, adv.address.toNat, u.skip, timeout, cte, ()) []) = parameters u (.createSync o adv
      timeout cte) := by
    wire_enc [bodyLePeriodicAdvertisingCreateSync, structPeriodicAdvertisingOptions, octets_1_1_1_5, mod8 h2, mod8 h4]
  have hread := fields_of 0x2044 bodyLePeriodicAdvertisingCreateSync _ _ (by decide) (by decide) (by decide) hf he hl
  refine (congrArg (fun o => Option.bind o _) hread).trans ?_
  show ((fun (((u, r, d, _), sid, t, a, _, timeout, cte, _) :
      (Nat × Nat × Nat × Unit) × Nat × Nat × Nat × Nat × Nat × Nat × Unit) =>
    (peerType t).bind fun t =>
      some (.createSync ⟨enabled u, enabled r, enabled d⟩ ⟨t, BitVec.ofNat 48 a, sid⟩ timeout cte)) ((yes o.useList, yes o.disableReporting, yes o.duplicateFiltering, ()), adv.sid, ofPeer adv.type, adv.address.toNat, u.skip, timeout, cte, ()) : Option Cmd) = some (.createSync o adv timeout cte)
  wire_call

theorem read_createSyncCancel (u : Unused) (hl : (parameters u (.createSyncCancel)).length < 256) : leCreateSyncCancel
    (octetsOf u (.createSyncCancel)) = some (.createSyncCancel) := by
  have hf : fits bodyLePeriodicAdvertisingCreateSyncCancel () 0 = true := by
    wire_fits [bodyLePeriodicAdvertisingCreateSyncCancel]
  have he : octets (enc bodyLePeriodicAdvertisingCreateSyncCancel () []) = parameters u (.createSyncCancel) := by
    wire_enc [bodyLePeriodicAdvertisingCreateSyncCancel, octets_1_1_6, octets_6_1_9e]
  have hread := fields_of 0x2045 bodyLePeriodicAdvertisingCreateSyncCancel _ _ (by decide) (by decide) (by decide) hf he hl
  refine (congrArg (fun o => Option.bind o _) hread).trans ?_
  show ((fun (_ : Unit) => some .createSyncCancel) () : Option Cmd) = some (.createSyncCancel)
  wire_call

theorem read_terminateSync (u : Unused) (h : Nat) (h1 : h < 4096) (hl : (parameters u (.terminateSync h)).length < 256) :
    leTerminateSync (octetsOf u (.terminateSync h)) = some (.terminateSync h) := by
  have hf : fits bodyLePeriodicAdvertisingTerminateSync (h, ()) 0 = true := by
    wire_fits [bodyLePeriodicAdvertisingTerminateSync, h1]
  have he : octets (enc bodyLePeriodicAdvertisingTerminateSync (h, ()) []) = parameters u (.terminateSync h) := by
    wire_enc [bodyLePeriodicAdvertisingTerminateSync, octets_12_4e _ h1]
  have hread := fields_of 0x2046 bodyLePeriodicAdvertisingTerminateSync _ _ (by decide) (by decide) (by decide) hf he hl
  refine (congrArg (fun o => Option.bind o _) hread).trans ?_
  show ((fun ((h, _) : Nat × Unit) => some (.terminateSync h)) (h, ()) : Option Cmd) = some (.terminateSync h)
  wire_call

theorem read_setScanParameters (u : Unused) (t : ScanType) (i w : Nat) (o : OwnAddressType) (p : ScanFilterPolicy) (h1 : i <
    65536) (h2 : w < 65536) (hl : (parameters u (.setScanParameters t i w o p)).length < 256) : leSetScanParameters (octetsOf
    u (.setScanParameters t i w o p)) = some (.setScanParameters t i w o p) := by
  have hf : fits bodyLeSetScanParameters (ofScan t, i, w, ofOwn o, ofScanPolicy p, ()) 0 = true := by
    wire_fits [bodyLeSetScanParameters, h1, h2]
  have he : octets (enc bodyLeSetScanParameters (ofScan t, i, w, ofOwn o, ofScanPolicy p, ()) []) = parameters u
      (.setScanParameters t i w o p) := by
    wire_enc [bodyLeSetScanParameters, octets_1_1_6, octets_6_1_9e]
  have hread := fields_of 0x200b bodyLeSetScanParameters _ _ (by decide) (by decide) (by decide) hf he hl
  refine (congrArg (fun o => Option.bind o _) hread).trans ?_
  show ((fun ((t, i, w, o, p, _) : Nat × Nat × Nat × Nat × Nat × Unit) =>
    (scanType t).bind fun t => (ownType o).bind fun o => (scanPolicy p).bind fun p => some (.setScanParameters t i w o p)) (ofScan t, i, w, ofOwn o, ofScanPolicy p, ()) : Option Cmd) = some (.setScanParameters t i w o p)
  wire_call

theorem read_setScanEnable (u : Unused) (e d : Bool) (hl : (parameters u (.setScanEnable e d)).length < 256) : leSetScanEnable
    (octetsOf u (.setScanEnable e d)) = some (.setScanEnable e d) := by
  have hf : fits bodyLeSetScanEnable (yes e, yes d, ()) 0 = true := by
    wire_fits [bodyLeSetScanEnable]
  have he : octets (enc bodyLeSetScanEnable (yes e, yes d, ()) []) = parameters u (.setScanEnable e d) := by
    wire_enc [bodyLeSetScanEnable, octets_1_1_6, octets_6_1_9e]
  have hread := fields_of 0x200c bodyLeSetScanEnable _ _ (by decide) (by decide) (by decide) hf he hl
  refine (congrArg (fun o => Option.bind o _) hread).trans ?_
  show ((fun ((e, d, _) : Nat × Nat × Unit) => some (.setScanEnable (enabled e) (enabled d))) (yes e, yes d, ()) : Option Cmd) = some (.setScanEnable e d)
  wire_call

theorem read_setExtendedScanEnable (x : Env) (u : Unused) (b : Bool) (d : FilterDuplicates) (du pe : Nat) (h1 : du < 65536)
    (h2 : pe < 65536) (hl : (parameters u (.setExtendedScanEnable x.now b d du pe)).length < 256) : leSetExtendedScanEnable x
    (octetsOf u (.setExtendedScanEnable x.now b d du pe)) = some (.setExtendedScanEnable x.now b d du pe) := by
  have hf : fits bodyLeSetExtendedScanEnable (yes b, ofDuplicates d, du, pe, ()) 0 = true := by
    wire_fits [bodyLeSetExtendedScanEnable, h1, h2]
  have he : octets (enc bodyLeSetExtendedScanEnable (yes b, ofDuplicates d, du, pe, ()) []) = parameters u
      (.setExtendedScanEnable x.now b d du pe) := by
    wire_enc [bodyLeSetExtendedScanEnable, octets_1_1_6, octets_6_1_9e]
  have hread := fields_of 0x2042 bodyLeSetExtendedScanEnable _ _ (by decide) (by decide) (by decide) hf he hl
  refine (congrArg (fun o => Option.bind o _) hread).trans ?_
  show ((fun ((e, d, duration, period, _) : Nat × Nat × Nat × Nat × Unit) =>
    (duplicates d).bind fun d => some (.setExtendedScanEnable x.now (enabled e) d duration period)) (yes b, ofDuplicates d, du, pe, ()) : Option Cmd) = some (.setExtendedScanEnable x.now b d du pe)
  wire_call

theorem read_createConnection (x : Env) (u : Unused) (pol : InitiatorFilterPolicy) (peer : AddressWithType) (own :
    OwnAddressType) (p : ConnParams) (hc : ConnFits p) (hl : (parameters u (.createConnection x.rnd pol peer own p)).length <
    256) : leCreateConnection x (octetsOf u (.createConnection x.rnd pol peer own p)) = some (.createConnection x.rnd pol peer
    own p) := by
  obtain ⟨h1, h2, h3, h4, h5, h6, h7, h8⟩ := hc
  have hf : fits bodyLeCreateConnection (p.scanInterval, p.scanWindow, ofInit pol, ofType peer.type, peer.address.toNat, ofOwn
      own, p.intervalMin, p.intervalMax, p.maxLatency, p.supervisionTimeout, p.minCeLength, p.maxCeLength, ()) 0 = true := by
    wire_fits [bodyLeCreateConnection, h1, h2, h3, h4, h5, h6, h7, h8]
  have he : octets (enc bodyLeCreateConnection (p.scanInterval, p.scanWindow, ofInit pol, ofType peer.type,
      peer.address.toNat, ofOwn own, p.intervalMin, p.intervalMax, p.maxLatency, p.supervisionTimeout, p.minCeLength,
      p.maxCeLength, ()) []) = parameters u (.createConnection x.rnd pol peer own p) := by
    wire_enc [bodyLeCreateConnection, octets_1_1_6, octets_6_1_9e]
  have hread := fields_of 0x200d bodyLeCreateConnection _ _ (by decide) (by decide) (by decide) hf he hl
  refine (congrArg (fun o => Option.bind o _) hread).trans ?_
  show ((fun ((si, sw, pol, t, a, o, imin, imax, lat, timeout, cmin, cmax, _) :
      Nat × Nat × Nat × Nat × Nat × Nat × Nat × Nat × Nat × Nat × Nat × Nat × Unit) =>
    (initPolicy pol).bind fun pol => (addressType t).bind fun t => (ownType o).bind fun o =>
      some (.createConnection x.rnd pol ⟨BitVec.ofNat 48 a, t⟩ o ⟨si, sw, imin, imax, lat, timeout, cmin, cmax⟩)) (p.scanInterval, p.scanWindow, ofInit pol, ofType peer.type, peer.address.toNat, ofOwn own, p.intervalMin, p.intervalMax, p.maxLatency, p.supervisionTimeout, p.minCeLength, p.maxCeLength, ()) : Option Cmd) = some (.createConnection x.rnd pol peer own p)
  wire_call

theorem read_createConnectionCancel (u : Unused) (hl : (parameters u (.createConnectionCancel)).length < 256) :
    leCreateConnectionCancel (octetsOf u (.createConnectionCancel)) = some (.createConnectionCancel) := by
  have hf : fits bodyLeCreateConnectionCancel () 0 = true := by
    wire_fits [bodyLeCreateConnectionCancel]
  have he : octets (enc bodyLeCreateConnectionCancel () []) = parameters u (.createConnectionCancel) := by
    wire_enc [bodyLeCreateConnectionCancel, octets_1_1_6, octets_6_1_9e]
  have hread := fields_of 0x200e bodyLeCreateConnectionCancel _ _ (by decide) (by decide) (by decide) hf he hl
  refine (congrArg (fun o => Option.bind o _) hread).trans ?_
  show ((fun (_ : Unit) => some .createConnectionCancel) () : Option Cmd) = some (.createConnectionCancel)
  wire_call

theorem read_setAdvertisingParameters (u : Unused) (p : LegacyParams) (h1 : p.intervalMin < 65536) (h2 : p.intervalMax <
    65536) (h3 : p.channelMap < 256) (hl : (parameters u (.setAdvertisingParameters p)).length < 256) :
    leSetAdvertisingParameters (octetsOf u (.setAdvertisingParameters p)) = some (.setAdvertisingParameters p) := by
  have hf : fits bodyLeSetAdvertisingParameters (p.intervalMin, p.intervalMax, ofAdv p.type, ofOwn p.own, ofPeer p.peerType,
      p.peer.toNat, p.channelMap, ofAdvPolicy p.policy, ()) 0 = true := by
    wire_fits [bodyLeSetAdvertisingParameters, h1, h2, h3]
  have he : octets (enc bodyLeSetAdvertisingParameters (p.intervalMin, p.intervalMax, ofAdv p.type, ofOwn p.own, ofPeer
      p.peerType, p.peer.toNat, p.channelMap, ofAdvPolicy p.policy, ()) []) = parameters u (.setAdvertisingParameters p) := by
    wire_enc [bodyLeSetAdvertisingParameters, octets_2_6e _ (ofAdvPolicy_lt _), mod8 h3]
  have hread := fields_of 0x2006 bodyLeSetAdvertisingParameters _ _ (by decide) (by decide) (by decide) hf he hl
  refine (congrArg (fun o => Option.bind o _) hread).trans ?_
  show ((fun ((imin, imax, t, o, pt, a, map, pol, _) : Nat × Nat × Nat × Nat × Nat × Nat × Nat × Nat × Unit) =>
    (advType t).bind fun t => (ownType o).bind fun o => (peerType pt).bind fun pt => (advPolicy pol).bind fun pol =>
      some (.setAdvertisingParameters ⟨imin, imax, t, o, pt, BitVec.ofNat 48 a, map, pol⟩)) (p.intervalMin, p.intervalMax, ofAdv p.type, ofOwn p.own, ofPeer p.peerType, p.peer.toNat, p.channelMap, ofAdvPolicy p.policy, ()) : Option Cmd) = some (.setAdvertisingParameters p)
  wire_call

theorem read_setAdvertisingEnable (x : Env) (u : Unused) (b : Bool) (hl : (parameters u (.setAdvertisingEnable x.now x.rndAdv
    b)).length < 256) : leSetAdvertisingEnable x (octetsOf u (.setAdvertisingEnable x.now x.rndAdv b)) = some
    (.setAdvertisingEnable x.now x.rndAdv b) := by
  have hf : fits bodyLeSetAdvertisingEnable (yes b, ()) 0 = true := by
    wire_fits [bodyLeSetAdvertisingEnable]
  have he : octets (enc bodyLeSetAdvertisingEnable (yes b, ()) []) = parameters u (.setAdvertisingEnable x.now x.rndAdv b) :=
      by
    wire_enc [bodyLeSetAdvertisingEnable, octets_1_1_6, octets_6_1_9e]
  have hread := fields_of 0x200a bodyLeSetAdvertisingEnable _ _ (by decide) (by decide) (by decide) hf he hl
  refine (congrArg (fun o => Option.bind o _) hread).trans ?_
  show ((fun ((e, _) : Nat × Unit) => some (.setAdvertisingEnable x.now x.rndAdv (enabled e))) (yes b, ()) : Option Cmd) = some (.setAdvertisingEnable x.now x.rndAdv b)
  wire_call

theorem read_setAdvertisingSetRandomAddress (u : Unused) (h : UInt8) (a : Address) (hl : (parameters u
    (.setAdvertisingSetRandomAddress h a)).length < 256) : leSetAdvertisingSetRandomAddress (octetsOf u
    (.setAdvertisingSetRandomAddress h a)) = some (.setAdvertisingSetRandomAddress h a) := by
  have hf : fits bodyLeSetAdvertisingSetRandomAddress (h.toNat, a.toNat, ()) 0 = true := by
    wire_fits [bodyLeSetAdvertisingSetRandomAddress]
  have he : octets (enc bodyLeSetAdvertisingSetRandomAddress (h.toNat, a.toNat, ()) []) = parameters u
      (.setAdvertisingSetRandomAddress h a) := by
    wire_enc [bodyLeSetAdvertisingSetRandomAddress, octets_1_1_6, octets_6_1_9e]
  have hread := fields_of 0x2035 bodyLeSetAdvertisingSetRandomAddress _ _ (by decide) (by decide) (by decide) hf he hl
  refine (congrArg (fun o => Option.bind o _) hread).trans ?_
  show ((fun ((h, a, _) : Nat × Nat × Unit) => some (.setAdvertisingSetRandomAddress (UInt8.ofNat h) (BitVec.ofNat 48 a))) (h.toNat, a.toNat, ()) : Option Cmd) = some (.setAdvertisingSetRandomAddress h a)
  wire_call

theorem read_setExtAdvertisingParameters (u : Unused) (h : UInt8) (p : ExtParams) (h1 : p.intervalMin < 16777216) (h2 :
    p.intervalMax < 16777216) (h3 : p.channelMap < 8) (h4 : p.txPower < 256) (h5 : p.secondaryMaxSkip < 256) (h6 : p.sid <
    256) (hl : (parameters u (.setExtAdvertisingParameters h p)).length < 256) : leSetExtAdvertisingParameters (octetsOf u
    (.setExtAdvertisingParameters h p)) = some (.setExtAdvertisingParameters h p) := by
  have hf : fits bodyLeSetExtendedAdvertisingParametersV1 (h.toNat, propVals p.properties, p.intervalMin, p.intervalMax,
      p.channelMap, ofOwn p.own, ofPeer p.peerType, p.peer.toNat, ofAdvPolicy p.policy, p.txPower, ofPrimary p.primaryPhy,
      p.secondaryMaxSkip, ofSecondary p.secondaryPhy, p.sid, yes p.scanRequestNotification, ()) 0 = true := by
    wire_fits [bodyLeSetExtendedAdvertisingParametersV1, h1, h2, h3, h4, h5, h6]
  have he : octets (enc bodyLeSetExtendedAdvertisingParametersV1 (h.toNat, propVals p.properties, p.intervalMin,
      p.intervalMax, p.channelMap, ofOwn p.own, ofPeer p.peerType, p.peer.toNat, ofAdvPolicy p.policy, p.txPower, ofPrimary
      p.primaryPhy, p.secondaryMaxSkip, ofSecondary p.secondaryPhy, p.sid, yes p.scanRequestNotification, ()) []) = parameters
      u (.setExtAdvertisingParameters h p) := by
    wire_enc [bodyLeSetExtendedAdvertisingParametersV1, octets_2_6 _ _ (ofAdvPolicy_lt _), octets_3_5 _ _ h3, octets_props, mod8 h4, mod8 h5, mod8 h6]
  have hread := fields_of 0x2036 bodyLeSetExtendedAdvertisingParametersV1 _ _ (by decide) (by decide) (by decide) hf he hl
  refine (congrArg (fun o => Option.bind o _) hread).trans ?_
  show ((fun ((h, q, imin, imax, map, o, pt, a, pol, tx, pri, skip, sec, sid, n, _) :
      Nat × (Nat × Nat × Nat × Nat × Nat × Nat × Nat × Nat × Nat × Nat × Unit) × Nat × Nat × Nat × Nat × Nat × Nat × Nat × Nat ×
      Nat × Nat × Nat × Nat × Nat × Unit) =>
    (properties q).bind fun q => (ownType o).bind fun o => (peerType pt).bind fun pt => (advPolicy pol).bind fun pol =>
      (primary pri).bind fun pri => (secondary sec).bind fun sec =>
      some (.setExtAdvertisingParameters (UInt8.ofNat h)
        ⟨q, imin, imax, map, o, pt, BitVec.ofNat 48 a, pol, tx, pri, skip, sec, sid, enabled n⟩)) (h.toNat, propVals p.properties, p.intervalMin, p.intervalMax, p.channelMap, ofOwn p.own, ofPeer p.peerType, p.peer.toNat, ofAdvPolicy p.policy, p.txPower, ofPrimary p.primaryPhy, p.secondaryMaxSkip, ofSecondary p.secondaryPhy, p.sid, yes p.scanRequestNotification, ()) : Option Cmd) = some (.setExtAdvertisingParameters h p)
  wire_call

theorem read_removeAdvertisingSet (u : Unused) (h : UInt8) (hl : (parameters u (.removeAdvertisingSet h)).length < 256) :
    leRemoveAdvertisingSet (octetsOf u (.removeAdvertisingSet h)) = some (.removeAdvertisingSet h) := by
  have hf : fits bodyLeRemoveAdvertisingSet (h.toNat, ()) 0 = true := by
    wire_fits [bodyLeRemoveAdvertisingSet]
  have he : octets (enc bodyLeRemoveAdvertisingSet (h.toNat, ()) []) = parameters u (.removeAdvertisingSet h) := by
    wire_enc [bodyLeRemoveAdvertisingSet, octets_1_1_6, octets_6_1_9e]
  have hread := fields_of 0x203c bodyLeRemoveAdvertisingSet _ _ (by decide) (by decide) (by decide) hf he hl
  refine (congrArg (fun o => Option.bind o _) hread).trans ?_
  show ((fun ((h, _) : Nat × Unit) => some (.removeAdvertisingSet (UInt8.ofNat h))) (h.toNat, ()) : Option Cmd) = some (.removeAdvertisingSet h)
  wire_call

theorem read_clearAdvertisingSets (u : Unused) (hl : (parameters u (.clearAdvertisingSets)).length < 256) :
    leClearAdvertisingSets (octetsOf u (.clearAdvertisingSets)) = some (.clearAdvertisingSets) := by
  have hf : fits bodyLeClearAdvertisingSets () 0 = true := by
    wire_fits [bodyLeClearAdvertisingSets]
  have he : octets (enc bodyLeClearAdvertisingSets () []) = parameters u (.clearAdvertisingSets) := by
    wire_enc [bodyLeClearAdvertisingSets, octets_1_1_6, octets_6_1_9e]
  have hread := fields_of 0x203d bodyLeClearAdvertisingSets _ _ (by decide) (by decide) (by decide) hf he hl
  refine (congrArg (fun o => Option.bind o _) hread).trans ?_
  show ((fun (_ : Unit) => some .clearAdvertisingSets) () : Option Cmd) = some (.clearAdvertisingSets)
  wire_call

theorem read_setPeriodicParameters (u : Unused) (h : UInt8) (a b : Nat) (h1 : a < 65536) (h2 : b < 65536) (hl : (parameters u
    (.setPeriodicParameters h a b)).length < 256) : leSetPeriodicParameters (octetsOf u (.setPeriodicParameters h a b)) = some
    (.setPeriodicParameters h a b) := by
  have hf : fits bodyLeSetPeriodicAdvertisingParametersV1 (h.toNat, a, b, yes u.txPower, ()) 0 = true := by
    wire_fits [bodyLeSetPeriodicAdvertisingParametersV1, h1, h2]
  have he : octets (enc bodyLeSetPeriodicAdvertisingParametersV1 (h.toNat, a, b, yes u.txPower, ()) []) = parameters u
      (.setPeriodicParameters h a b) := by
    wire_enc [bodyLeSetPeriodicAdvertisingParametersV1, octets_1_1_6, octets_6_1_9e]
  have hread := fields_of 0x203e bodyLeSetPeriodicAdvertisingParametersV1 _ _ (by decide) (by decide) (by decide) hf he hl
  refine (congrArg (fun o => Option.bind o _) hread).trans ?_
  show ((fun ((h, imin, imax, _, _) : Nat × Nat × Nat × Nat × Unit) => some (.setPeriodicParameters (UInt8.ofNat h) imin imax)) (h.toNat, a, b, yes u.txPower, ()) : Option Cmd) = some (.setPeriodicParameters h a b)
  wire_call

theorem read_setPeriodicEnable (x : Env) (u : Unused) (b adi : Bool) (h : UInt8) (hl : (parameters u (.setPeriodicEnable x.now
    b adi h)).length < 256) : leSetPeriodicEnable x (octetsOf u (.setPeriodicEnable x.now b adi h)) = some (.setPeriodicEnable
    x.now b adi h) := by
  have hf : fits bodyLeSetPeriodicAdvertisingEnable (yes b, yes adi, h.toNat, ()) 0 = true := by
    wire_fits [bodyLeSetPeriodicAdvertisingEnable]
  have he : octets (enc bodyLeSetPeriodicAdvertisingEnable (yes b, yes adi, h.toNat, ()) []) = parameters u
      (.setPeriodicEnable x.now b adi h) := by
    wire_enc [bodyLeSetPeriodicAdvertisingEnable, octets_1_1_6, octets_6_1_9e]
  have hread := fields_of 0x2040 bodyLeSetPeriodicAdvertisingEnable _ _ (by decide) (by decide) (by decide) hf he hl
  refine (congrArg (fun o => Option.bind o _) hread).trans ?_
  show ((fun ((e, adi, h, _) : Nat × Nat × Nat × Unit) =>
    some (.setPeriodicEnable x.now (enabled e) (enabled adi) (UInt8.ofNat h))) (yes b, yes adi, h.toNat, ()) : Option Cmd) = some (.setPeriodicEnable x.now b adi h)
  wire_call

theorem read_setAdvertisingData (u : Unused) (d : List UInt8) (h1 : d.length ≤ 31) (hl : (parameters u (.setAdvertisingData
    d)).length < 256) : leSetAdvertisingData (octetsOf u (.setAdvertisingData d)) = some (.setAdvertisingData d) := by
  have h2 : d.length < 256 := by omega
  have h3 : 8 * d.length ≤ 248 := by omega
  have hf : fits bodyLeSetAdvertisingData (elems (ofData d), ()) 0 = true := by
    wire_fits [bodyLeSetAdvertisingData, announced, width_elems, ofData_length, h2, h3]
    exact fits_elems _ (ofData_lt d)
  have he : octets (enc bodyLeSetAdvertisingData (elems (ofData d), ()) []) = parameters u (.setAdvertisingData d) := by
    wire_enc [bodyLeSetAdvertisingData, lenOf, enc_elems, padTo_zero, unpack_length, ofData_length, octets_data, octets_legacy, ofLegacy, h1, mod8 h2]
  have hread := fields_of 0x2008 bodyLeSetAdvertisingData _ _ (by decide) (by decide) (by decide) hf he hl
  refine (congrArg (fun o => Option.bind o _) hread).trans ?_
  show ((fun ((d, _) : List (Nat × Unit) × Unit) => some (.setAdvertisingData (data d))) (elems (ofData d), ()) : Option Cmd) = some (.setAdvertisingData d)
  simp [data_of]

theorem read_setScanResponseData (u : Unused) (d : List UInt8) (h1 : d.length ≤ 31) (hl : (parameters u (.setScanResponseData
    d)).length < 256) : leSetScanResponseData (octetsOf u (.setScanResponseData d)) = some (.setScanResponseData d) := by
  have h2 : d.length < 256 := by omega
  have h3 : 8 * d.length ≤ 248 := by omega
  have hf : fits bodyLeSetScanResponseData (elems (ofData d), ()) 0 = true := by
    wire_fits [bodyLeSetScanResponseData, announced, width_elems, ofData_length, h2, h3]
    exact fits_elems _ (ofData_lt d)
  have he : octets (enc bodyLeSetScanResponseData (elems (ofData d), ()) []) = parameters u (.setScanResponseData d) := by
    wire_enc [bodyLeSetScanResponseData, lenOf, enc_elems, padTo_zero, unpack_length, ofData_length, octets_data, octets_legacy, ofLegacy, h1, mod8 h2]
  have hread := fields_of 0x2009 bodyLeSetScanResponseData _ _ (by decide) (by decide) (by decide) hf he hl
  refine (congrArg (fun o => Option.bind o _) hread).trans ?_
  show ((fun ((d, _) : List (Nat × Unit) × Unit) => some (.setScanResponseData (data d))) (elems (ofData d), ()) : Option Cmd) = some (.setScanResponseData d)
  simp [data_of]

theorem read_setExtAdvertisingData (u : Unused) (h : UInt8) (op : Operation) (d : List UInt8) (h1 : OpFits u op) (hl :
    (parameters u (.setExtAdvertisingData h op d)).length < 256) : leSetExtAdvertisingData (octetsOf u (.setExtAdvertisingData
    h op d)) = some (.setExtAdvertisingData h op d) := by
  have h2 : d.length < 256 := by
    simp only [parameters, List.length_append, ofData_length] at hl; omega
  have hf : fits bodyLeSetExtendedAdvertisingData (h.toNat, ofOperation u op, yes u.fragment, elems (ofData d), ()) 0 = true
      := by
    wire_fits [bodyLeSetExtendedAdvertisingData, announced, width_elems, ofData_length, h2, ofOperation_lt u op h1]
    exact fits_elems _ (ofData_lt d)
  have he : octets (enc bodyLeSetExtendedAdvertisingData (h.toNat, ofOperation u op, yes u.fragment, elems (ofData d), ()) [])
      = parameters u (.setExtAdvertisingData h op d) := by
    wire_enc [bodyLeSetExtendedAdvertisingData, lenOf, enc_elems, padTo_zero, unpack_length, ofData_length, octets_data, octets_3_5 _ _ (ofOperation_lt u op h1), octets_1_7 _ _ (yes_lt _), mod8 h2]
  have hread := fields_of 0x2037 bodyLeSetExtendedAdvertisingData _ _ (by decide) (by decide) (by decide) hf he hl
  refine (congrArg (fun o => Option.bind o _) hread).trans ?_
  show ((fun ((h, op, _, d, _) : Nat × Nat × Nat × List (Nat × Unit) × Unit) =>
    some (.setExtAdvertisingData (UInt8.ofNat h) (operation op) (data d))) (h.toNat, ofOperation u op, yes u.fragment, elems (ofData d), ()) : Option Cmd) = some (.setExtAdvertisingData h op d)
  simp [data_of, operation_of u op h1]

theorem read_setExtScanResponseData (u : Unused) (h : UInt8) (op : Operation) (d : List UInt8) (h1 : OpFits u op) (hl :
    (parameters u (.setExtScanResponseData h op d)).length < 256) : leSetExtScanResponseData (octetsOf u
    (.setExtScanResponseData h op d)) = some (.setExtScanResponseData h op d) := by
  have h2 : d.length < 256 := by
    simp only [parameters, List.length_append, ofData_length] at hl; omega
  have hf : fits bodyLeSetExtendedScanResponseData (h.toNat, ofOperation u op, yes u.fragment, elems (ofData d), ()) 0 = true
      := by
    wire_fits [bodyLeSetExtendedScanResponseData, announced, width_elems, ofData_length, h2, ofOperation_lt u op h1]
    exact fits_elems _ (ofData_lt d)
  have he : octets (enc bodyLeSetExtendedScanResponseData (h.toNat, ofOperation u op, yes u.fragment, elems (ofData d), ())
      []) = parameters u (.setExtScanResponseData h op d) := by
    wire_enc [bodyLeSetExtendedScanResponseData, lenOf, enc_elems, padTo_zero, unpack_length, ofData_length, octets_data, octets_3_5 _ _ (ofOperation_lt u op h1), octets_1_7 _ _ (yes_lt _), mod8 h2]
  have hread := fields_of 0x2038 bodyLeSetExtendedScanResponseData _ _ (by decide) (by decide) (by decide) hf he hl
  refine (congrArg (fun o => Option.bind o _) hread).trans ?_
  show ((fun ((h, op, _, d, _) : Nat × Nat × Nat × List (Nat × Unit) × Unit) =>
    some (.setExtScanResponseData (UInt8.ofNat h) (operation op) (data d))) (h.toNat, ofOperation u op, yes u.fragment, elems (ofData d), ()) : Option Cmd) = some (.setExtScanResponseData h op d)
  simp [data_of, operation_of u op h1]

theorem read_setPeriodicData (u : Unused) (h : UInt8) (op : Operation) (d : List UInt8) (h1 : OpFits u op) (hl : (parameters u
    (.setPeriodicData h op d)).length < 256) : leSetPeriodicData (octetsOf u (.setPeriodicData h op d)) = some
    (.setPeriodicData h op d) := by
  have h2 : d.length < 256 := by
    simp only [parameters, List.length_append, ofData_length] at hl; omega
  have hf : fits bodyLeSetPeriodicAdvertisingData (h.toNat, ofOperation u op, elems (ofData d), ()) 0 = true := by
    wire_fits [bodyLeSetPeriodicAdvertisingData, announced, width_elems, ofData_length, h2, ofOperation_lt u op h1]
    exact fits_elems _ (ofData_lt d)
  have he : octets (enc bodyLeSetPeriodicAdvertisingData (h.toNat, ofOperation u op, elems (ofData d), ()) []) = parameters u
      (.setPeriodicData h op d) := by
    wire_enc [bodyLeSetPeriodicAdvertisingData, lenOf, enc_elems, padTo_zero, unpack_length, ofData_length, octets_data, octets_3_5 _ _ (ofOperation_lt u op h1), mod8 h2]
  have hread := fields_of 0x203f bodyLeSetPeriodicAdvertisingData _ _ (by decide) (by decide) (by decide) hf he hl
  refine (congrArg (fun o => Option.bind o _) hread).trans ?_
  show ((fun ((h, op, d, _) : Nat × Nat × List (Nat × Unit) × Unit) =>
    some (.setPeriodicData (UInt8.ofNat h) (operation op) (data d))) (h.toNat, ofOperation u op, elems (ofData d), ()) : Option Cmd) = some (.setPeriodicData h op d)
  simp [data_of, operation_of u op h1]

theorem read_addResolving (u : Unused) (t : PeerAddressType) (a : Address) (pk lk : Irk) (hl : (parameters u (.addResolving t
    a pk lk)).length < 256) : leAddResolving (octetsOf u (.addResolving t a pk lk)) = some (.addResolving t a pk lk) := by
  have hf : fits bodyLeAddDeviceToResolvingList (ofPeer t, a.toNat, elems (ofKey pk), elems (ofKey lk), ()) 0 = true := by
    wire_fits [bodyLeAddDeviceToResolvingList, ofKey]
    exact ⟨⟨fits_elems _ (le_lt _ _), (elems_length _).trans (le_length _ _)⟩,
      fits_elems _ (le_lt _ _), (elems_length _).trans (le_length _ _)⟩
  have he : octets (enc bodyLeAddDeviceToResolvingList (ofPeer t, a.toNat, elems (ofKey pk), elems (ofKey lk), ()) []) =
      parameters u (.addResolving t a pk lk) := by
    wire_enc [bodyLeAddDeviceToResolvingList, enc_elems, padTo_zero, octets_key, octets_keye]
  have hread := fields_of 0x2027 bodyLeAddDeviceToResolvingList _ _ (by decide) (by decide) (by decide) hf he hl
  refine (congrArg (fun o => Option.bind o _) hread).trans ?_
  show ((fun ((t, a, pk, lk, _) : Nat × Nat × List (Nat × Unit) × List (Nat × Unit) × Unit) =>
    (peerType t).bind fun t => some (.addResolving t (BitVec.ofNat 48 a) (key pk) (key lk))) (ofPeer t, a.toNat, elems (ofKey pk), elems (ofKey lk), ()) : Option Cmd) = some (.addResolving t a pk lk)
  simp [peerType_of, key_of]

theorem read_setExtAdvertisingEnable (x : Env) (u : Unused) (b : Bool) (sets : List EnabledSet) (h1 : ∀ t ∈ sets, t.duration <
    65536 ∧ t.maxEvents < 256) (hl : (parameters u (.setExtAdvertisingEnable x.now x.rndAdv b sets)).length < 256) :
    leSetExtAdvertisingEnable x (octetsOf u (.setExtAdvertisingEnable x.now x.rndAdv b sets)) = some (.setExtAdvertisingEnable
    x.now x.rndAdv b sets) := by
  have h2 : sets.length < 256 := by
    have := sum_sets sets
    simp only [parameters, List.length_append] at hl; omega
  have hf : fits bodyLeSetExtendedAdvertisingEnable (yes b, sets.map setVals, ()) 0 = true := by
    wire_fits [bodyLeSetExtendedAdvertisingEnable, announced]
    exact ⟨(List.length_map setVals).symm ▸ h2, List.all_eq_true.mp (fits_sets sets h1)⟩
  have he : octets (enc bodyLeSetExtendedAdvertisingEnable (yes b, sets.map setVals, ()) []) = parameters u
      (.setExtAdvertisingEnable x.now x.rndAdv b sets) := by
    wire_enc [bodyLeSetExtendedAdvertisingEnable, lenOf, padTo_zero]
    exact ⟨(congrArg (· % 256) (List.length_map setVals)).trans (mod8 h2), octets_sets sets h1⟩
  have hread := fields_of 0x2039 bodyLeSetExtendedAdvertisingEnable _ _ (by decide) (by decide) (by decide) hf he hl
  refine (congrArg (fun o => Option.bind o _) hread).trans ?_
  show ((fun ((e, sets, _) : Nat × List (Nat × Nat × Nat × Unit) × Unit) =>
    some (.setExtAdvertisingEnable x.now x.rndAdv (enabled e) (sets.map enabledSet))) (yes b, sets.map setVals, ()) : Option Cmd) = some (.setExtAdvertisingEnable x.now x.rndAdv b sets)
  simp [enabled_of]
  exact List.map_map.symm.trans (sets_of sets)

theorem read_setExtendedScanParameters (u : Unused) (o : OwnAddressType) (p : ScanFilterPolicy) (phys : UInt8) (ps : List
    ScanPhyParams) (h1 : ∀ q ∈ ps, q.interval < 65536 ∧ q.window < 65536) (hl : (parameters u (.setExtendedScanParameters o p
    phys ps)).length < 256) : leSetExtendedScanParameters (octetsOf u (.setExtendedScanParameters o p phys ps)) = some
    (.setExtendedScanParameters o p phys ps) := by
  have hf : fits bodyLeSetExtendedScanParameters (ofOwn o, ofScanPolicy p, phys.toNat, ps.map scanVals, ()) 0 = true := by
    wire_fits [bodyLeSetExtendedScanParameters, width]
    exact List.all_eq_true.mp (fits_scans ps h1)
  have he : octets (enc bodyLeSetExtendedScanParameters (ofOwn o, ofScanPolicy p, phys.toNat, ps.map scanVals, ()) []) =
      parameters u (.setExtendedScanParameters o p phys ps) := by
    wire_enc [bodyLeSetExtendedScanParameters, padTo_zero]
    exact octets_scans ps
  have hread := fields_of 0x2041 bodyLeSetExtendedScanParameters _ _ (by decide) (by decide) (by decide) hf he hl
  refine (congrArg (fun o => Option.bind o _) hread).trans ?_
  show ((fun ((o, p, phys, ps, _) : Nat × Nat × Nat × List (Nat × Nat × Nat × Unit) × Unit) =>
    (ownType o).bind fun o => (scanPolicy p).bind fun p => (every scanPhy ps).bind fun ps =>
      some (.setExtendedScanParameters o p (UInt8.ofNat phys) ps)) (ofOwn o, ofScanPolicy p, phys.toNat, ps.map scanVals, ()) : Option Cmd) = some (.setExtendedScanParameters o p phys ps)
  simp [scans_of, ownType_of, scanPolicy_of]

theorem read_extendedCreateConnection (x : Env) (u : Unused) (pol : InitiatorFilterPolicy) (own : OwnAddressType) (peer :
    AddressWithType) (phys : UInt8) (ps : List ConnParams) (ht : peer.type = .publicDevice ∨ peer.type = .randomDevice) (h1 :
    ∀ p ∈ ps, ConnFits p) (hl : (parameters u (.extendedCreateConnection x.rnd pol own peer phys ps)).length < 256) :
    leExtendedCreateConnection x (octetsOf u (.extendedCreateConnection x.rnd pol own peer phys ps)) = some
    (.extendedCreateConnection x.rnd pol own peer phys ps) := by
  have hd : peerDevice (ofType peer.type) = peer.type := by rcases ht with h | h <;> rw [h] <;> rfl
  have hf : fits bodyLeExtendedCreateConnectionV1 (ofInit pol, ofOwn own, ofType peer.type, peer.address.toNat, phys.toNat,
      ps.map initVals, ()) 0 = true := by
    wire_fits [bodyLeExtendedCreateConnectionV1, width]
    exact List.all_eq_true.mp (fits_inits ps h1)
  have he : octets (enc bodyLeExtendedCreateConnectionV1 (ofInit pol, ofOwn own, ofType peer.type, peer.address.toNat,
      phys.toNat, ps.map initVals, ()) []) = parameters u (.extendedCreateConnection x.rnd pol own peer phys ps) := by
    wire_enc [bodyLeExtendedCreateConnectionV1, padTo_zero]
    exact octets_inits ps
  have hread := fields_of 0x2043 bodyLeExtendedCreateConnectionV1 _ _ (by decide) (by decide) (by decide) hf he hl
  refine (congrArg (fun o => Option.bind o _) hread).trans ?_
  show ((fun ((pol, o, t, a, phys, ps, _) : Nat × Nat × Nat × Nat × Nat ×
      List (Nat × Nat × Nat × Nat × Nat × Nat × Nat × Nat × Unit) × Unit) =>
    (initPolicy pol).bind fun pol => (ownType o).bind fun o =>
      some (.extendedCreateConnection x.rnd pol o ⟨BitVec.ofNat 48 a, peerDevice t⟩ (UInt8.ofNat phys) (ps.map initPhy))) (ofInit pol, ofOwn own, ofType peer.type, peer.address.toNat, phys.toNat, ps.map initVals, ()) : Option Cmd) = some (.extendedCreateConnection x.rnd pol own peer phys ps)
  simp [ownType_of, initPolicy_of, hd]
  exact List.map_map.symm.trans (inits_of ps)

end Verif.Wire
