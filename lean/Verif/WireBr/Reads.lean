import Verif.WireBr.Lemmas

/-!
# The handlers read the octets of the commands
-/
namespace Verif.WireBr

open Verif.Pol Verif.Pdl Verif.Pdl.Hci Verif.Wire
open Verif.Br (Role)
open Verif.Sco (ConnParams)

theorem read_inquiryCancel (u : Unused)  :
    hInquiryCancel (octetsOf u (.base (.inquiryCancel))) = some (.base (.inquiryCancel)) := by
  have hf : fits bodyInquiryCancel () 0 = true := by
    br_fits [bodyInquiryCancel]
  have he : octets (enc bodyInquiryCancel () []) = parameters u (.base (.inquiryCancel)) := by
    br_enc [bodyInquiryCancel]
  have hread := fields_of 0x0402 bodyInquiryCancel _ _ (by decide) (by decide) (by decide) hf he (by br_len)
  refine (congrArg (fun o => Option.bind o _) hread).trans ?_
  show ((fun (_ : Unit) => some (.base .inquiryCancel)) () : Option PCmd) = some (.base (.inquiryCancel))
  br_call []

theorem read_create (u : Unused) (a : Nat) (w : Bool) (h1 : a < 281474976710656) (h2 : u.Fits) :
    hCreate (octetsOf u (.base (.create a w))) = some (.base (.create a w)) := by
  obtain ⟨u1, u2, u3⟩ := h2
  have hf : fits bodyCreateConnection (a, u.types, u.repetition, u.clock, yes u.clockValid, yes w, ()) 0 = true := by
    br_fits [bodyCreateConnection, h1, u1, u2, u3]
  have he : octets (enc bodyCreateConnection (a, u.types, u.repetition, u.clock, yes u.clockValid, yes w, ()) []) =
    parameters u (.base (.create a w)) := by
    br_enc [bodyCreateConnection, mod8 u2, octets_15_1 _ _ _ u3]
  have hread := fields_of 0x0405 bodyCreateConnection _ _ (by decide) (by decide) (by decide) hf he (by br_len)
  refine (congrArg (fun o => Option.bind o _) hread).trans ?_
  show ((fun ((a, _, _, _, _, w, _) : Nat × Nat × Nat × Nat × Nat × Nat × Unit) => (flag w).map (fun w => .base (.create a
    w))) (a, u.types, u.repetition, u.clock, yes u.clockValid, yes w, ()) : Option PCmd) = some (.base (.create a w))
  br_call []

theorem read_disconnect (u : Unused) (h r : Nat) (h1 : h < 512) (h2 : r < 256) :
    hDisconnect (octetsOf u (.base (.disconnect h r))) = some (.base (.disconnect h r)) := by
  have hh : h < 4096 := by omega
  have hf : fits bodyDisconnect (h, r, ()) 0 = true := by
    br_fits [bodyDisconnect, hh, h2]
  have he : octets (enc bodyDisconnect (h, r, ()) []) = parameters u (.base (.disconnect h r)) := by
    br_enc [bodyDisconnect, octets_12_4 _ _ hh, octets_12_4e _ hh, mod8 h2]
  have hread := fields_of 0x0406 bodyDisconnect _ _ (by decide) (by decide) (by decide) hf he (by br_len)
  refine (congrArg (fun o => Option.bind o _) hread).trans ?_
  show ((fun ((h, r, _) : Nat × Nat × Unit) => if h ≤ 0x1ff then some (.base (.disconnect h r)) else none) (h, r, ()) :
    Option PCmd) = some (.base (.disconnect h r))
  br_call [show h ≤ 511 by omega]

theorem read_addSco (u : Unused) (h : Nat) (t : UInt16) (h1 : h < 4096) :
    hAddSco (octetsOf u (.base (.addSco h t))) = some (.base (.addSco h t)) := by
  have hf : fits bodyAddScoConnection (h, t.toNat, ()) 0 = true := by
    br_fits [bodyAddScoConnection, h1]
  have he : octets (enc bodyAddScoConnection (h, t.toNat, ()) []) = parameters u (.base (.addSco h t)) := by
    br_enc [bodyAddScoConnection, octets_12_4 _ _ h1, octets_12_4e _ h1]
  have hread := fields_of 0x0407 bodyAddScoConnection _ _ (by decide) (by decide) (by decide) hf he (by br_len)
  refine (congrArg (fun o => Option.bind o _) hread).trans ?_
  show ((fun ((h, t, _) : Nat × Nat × Unit) => some (.base (.addSco h (UInt16.ofNat t)))) (h, t.toNat, ()) : Option PCmd) =
    some (.base (.addSco h t))
  br_call []

theorem read_cancel (u : Unused) (a : Nat) (h1 : a < 281474976710656) :
    hCancel (octetsOf u (.base (.cancel a))) = some (.base (.cancel a)) := by
  have hf : fits bodyCreateConnectionCancel (a, ()) 0 = true := by
    br_fits [bodyCreateConnectionCancel, h1]
  have he : octets (enc bodyCreateConnectionCancel (a, ()) []) = parameters u (.base (.cancel a)) := by
    br_enc [bodyCreateConnectionCancel]
  have hread := fields_of 0x0408 bodyCreateConnectionCancel _ _ (by decide) (by decide) (by decide) hf he (by br_len)
  refine (congrArg (fun o => Option.bind o _) hread).trans ?_
  show ((fun ((a, _) : Nat × Unit) => some (.base (.cancel a))) (a, ()) : Option PCmd) = some (.base (.cancel a))
  br_call []

theorem read_accept (u : Unused) (a : Nat) (t : Bool) (h1 : a < 281474976710656) :
    hAccept (octetsOf u (.base (.accept a t))) = some (.base (.accept a t)) := by
  have hf : fits bodyAcceptConnectionRequest (a, yes (!t), ()) 0 = true := by
    br_fits [bodyAcceptConnectionRequest, h1]
  have he : octets (enc bodyAcceptConnectionRequest (a, yes (!t), ()) []) = parameters u (.base (.accept a t)) := by
    br_enc [bodyAcceptConnectionRequest]
  have hread := fields_of 0x0409 bodyAcceptConnectionRequest _ _ (by decide) (by decide) (by decide) hf he (by br_len)
  refine (congrArg (fun o => Option.bind o _) hread).trans ?_
  show ((fun ((a, r, _) : Nat × Nat × Unit) => some (.base (.accept a (r == 0)))) (a, yes (!t), ()) : Option PCmd) = some
    (.base (.accept a t))
  br_call []

theorem read_reject (u : Unused) (a r : Nat) (h1 : a < 281474976710656) (h2 : r < 256) :
    hReject (octetsOf u (.base (.reject a r))) = some (.base (.reject a r)) := by
  have hf : fits bodyRejectConnectionRequest (a, r, ()) 0 = true := by
    br_fits [bodyRejectConnectionRequest, h1, h2]
  have he : octets (enc bodyRejectConnectionRequest (a, r, ()) []) = parameters u (.base (.reject a r)) := by
    br_enc [bodyRejectConnectionRequest, mod8 h2]
  have hread := fields_of 0x040a bodyRejectConnectionRequest _ _ (by decide) (by decide) (by decide) hf he (by br_len)
  refine (congrArg (fun o => Option.bind o _) hread).trans ?_
  show ((fun ((a, r, _) : Nat × Nat × Unit) => some (.base (.reject a r))) (a, r, ()) : Option PCmd) = some (.base (.reject a
    r))
  br_call []

theorem read_packetType (u : Unused) (h t : Nat) (h1 : h < 4096) (h2 : t < 65536) :
    hPacketType (octetsOf u (.packetType h t)) = some (.packetType h t) := by
  have hf : fits bodyChangeConnectionPacketType (h, t, ()) 0 = true := by
    br_fits [bodyChangeConnectionPacketType, h1, h2]
  have he : octets (enc bodyChangeConnectionPacketType (h, t, ()) []) = parameters u (.packetType h t) := by
    br_enc [bodyChangeConnectionPacketType, octets_12_4 _ _ h1, octets_12_4e _ h1]
  have hread := fields_of 0x040f bodyChangeConnectionPacketType _ _ (by decide) (by decide) (by decide) hf he (by br_len)
  refine (congrArg (fun o => Option.bind o _) hread).trans ?_
  show ((fun ((h, t, _) : Nat × Nat × Unit) => some (.packetType h t)) (h, t, ()) : Option PCmd) = some (.packetType h t)
  br_call []

theorem read_changeKey (u : Unused) (h : Nat) (h1 : h < 4096) :
    hChangeKey (octetsOf u (.changeKey h)) = some (.changeKey h) := by
  have hf : fits bodyChangeConnectionLinkKey (h, ()) 0 = true := by
    br_fits [bodyChangeConnectionLinkKey, h1]
  have he : octets (enc bodyChangeConnectionLinkKey (h, ()) []) = parameters u (.changeKey h) := by
    br_enc [bodyChangeConnectionLinkKey, octets_12_4 _ _ h1, octets_12_4e _ h1]
  have hread := fields_of 0x0415 bodyChangeConnectionLinkKey _ _ (by decide) (by decide) (by decide) hf he (by br_len)
  refine (congrArg (fun o => Option.bind o _) hread).trans ?_
  show ((fun ((h, _) : Nat × Unit) => some (.changeKey h)) (h, ()) : Option PCmd) = some (.changeKey h)
  br_call []

theorem read_centralKey (u : Unused) (f : Nat) (h1 : f < 256) :
    hCentralKey (octetsOf u (.centralKey f)) = some (.centralKey f) := by
  have hf : fits bodyCentralLinkKey (f, ()) 0 = true := by
    br_fits [bodyCentralLinkKey, h1]
  have he : octets (enc bodyCentralLinkKey (f, ()) []) = parameters u (.centralKey f) := by
    br_enc [bodyCentralLinkKey, mod8 h1]
  have hread := fields_of 0x0417 bodyCentralLinkKey _ _ (by decide) (by decide) (by decide) hf he (by br_len)
  refine (congrArg (fun o => Option.bind o _) hread).trans ?_
  show ((fun ((f, _) : Nat × Unit) => some (.centralKey f)) (f, ()) : Option PCmd) = some (.centralKey f)
  br_call []

theorem read_name (u : Unused) (a : Nat) (h1 : a < 281474976710656) (h2 : u.Fits) :
    hName (octetsOf u (.base (.name a))) = some (.base (.name a)) := by
  obtain ⟨u1, u2, u3⟩ := h2
  have hf : fits bodyRemoteNameRequest (a, u.repetition, u.clock, yes u.clockValid, ()) 0 = true := by
    br_fits [bodyRemoteNameRequest, h1, u1, u2, u3]
  have he : octets (enc bodyRemoteNameRequest (a, u.repetition, u.clock, yes u.clockValid, ()) []) = parameters u (.base
    (.name a)) := by
    br_enc [bodyRemoteNameRequest, mod8 u2, octets_15_1 _ _ _ u3, octets_15_1e _ _ u3]
  have hread := fields_of 0x0419 bodyRemoteNameRequest _ _ (by decide) (by decide) (by decide) hf he (by br_len)
  refine (congrArg (fun o => Option.bind o _) hread).trans ?_
  show ((fun ((a, _, _, _, _) : Nat × Nat × Nat × Nat × Unit) => some (.base (.name a))) (a, u.repetition, u.clock, yes
    u.clockValid, ()) : Option PCmd) = some (.base (.name a))
  br_call []

theorem read_features (u : Unused) (h : Nat) (h1 : h < 4096) :
    hFeatures (octetsOf u (.base (.features h))) = some (.base (.features h)) := by
  have hf : fits bodyReadRemoteSupportedFeatures (h, ()) 0 = true := by
    br_fits [bodyReadRemoteSupportedFeatures, h1]
  have he : octets (enc bodyReadRemoteSupportedFeatures (h, ()) []) = parameters u (.base (.features h)) := by
    br_enc [bodyReadRemoteSupportedFeatures, octets_12_4 _ _ h1, octets_12_4e _ h1]
  have hread := fields_of 0x041b bodyReadRemoteSupportedFeatures _ _ (by decide) (by decide) (by decide) hf he (by br_len)
  refine (congrArg (fun o => Option.bind o _) hread).trans ?_
  show ((fun ((h, _) : Nat × Unit) => some (.base (.features h))) (h, ()) : Option PCmd) = some (.base (.features h))
  br_call []

theorem read_ext (u : Unused) (h p : Nat) (h1 : h < 4096) (h2 : p < 256) :
    hExt (octetsOf u (.base (.ext h p))) = some (.base (.ext h p)) := by
  have hf : fits bodyReadRemoteExtendedFeatures (h, p, ()) 0 = true := by
    br_fits [bodyReadRemoteExtendedFeatures, h1, h2]
  have he : octets (enc bodyReadRemoteExtendedFeatures (h, p, ()) []) = parameters u (.base (.ext h p)) := by
    br_enc [bodyReadRemoteExtendedFeatures, octets_12_4 _ _ h1, octets_12_4e _ h1, mod8 h2]
  have hread := fields_of 0x041c bodyReadRemoteExtendedFeatures _ _ (by decide) (by decide) (by decide) hf he (by br_len)
  refine (congrArg (fun o => Option.bind o _) hread).trans ?_
  show ((fun ((h, p, _) : Nat × Nat × Unit) => some (.base (.ext h p))) (h, p, ()) : Option PCmd) = some (.base (.ext h p))
  br_call []

theorem read_version (u : Unused) (h : Nat) (h1 : h < 256) :
    hVersion (octetsOf u (.base (.version h))) = some (.base (.version h)) := by
  have hh : h < 4096 := by omega
  have hf : fits bodyReadRemoteVersionInformation (h, ()) 0 = true := by
    br_fits [bodyReadRemoteVersionInformation, hh]
  have he : octets (enc bodyReadRemoteVersionInformation (h, ()) []) = parameters u (.base (.version h)) := by
    br_enc [bodyReadRemoteVersionInformation, octets_12_4 _ _ hh, octets_12_4e _ hh]
  have hread := fields_of 0x041d bodyReadRemoteVersionInformation _ _ (by decide) (by decide) (by decide) hf he (by br_len)
  refine (congrArg (fun o => Option.bind o _) hread).trans ?_
  show ((fun ((h, _) : Nat × Unit) => if h ≤ 0xff then some (.base (.version h)) else none) (h, ()) : Option PCmd) = some
    (.base (.version h))
  br_call [show h ≤ 255 by omega]

theorem read_setupSync (u : Unused) (h : Nat) (p : ConnParams) (h1 : h < 4096) (h2 : p.voiceSetting.toNat < 1024) :
    hSetupSync (octetsOf u (.base (.setupSync h p false))) = some (.base (.setupSync h p false)) := by
  have hf : fits bodySetupSynchronousConnection (h, p.txBandwidth.toNat, p.rxBandwidth.toNat, p.maxLatency.toNat,
    p.voiceSetting.toNat, p.effort.toNat, p.packetType.toNat, ()) 0 = true := by
    br_fits [bodySetupSynchronousConnection, h1, h2]
  have he : octets (enc bodySetupSynchronousConnection (h, p.txBandwidth.toNat, p.rxBandwidth.toNat, p.maxLatency.toNat,
    p.voiceSetting.toNat, p.effort.toNat, p.packetType.toNat, ()) []) = parameters u (.base (.setupSync h p false)) := by
    br_enc [bodySetupSynchronousConnection, octets_12_4 _ _ h1, octets_12_4e _ h1, octets_10_6 _ _ h2]
  have hread := fields_of 0x0428 bodySetupSynchronousConnection _ _ (by decide) (by decide) (by decide) hf he (by br_len)
  refine (congrArg (fun o => Option.bind o _) hread).trans ?_
  show ((fun ((h, b, d, l, v, e, t, _) : Nat × Nat × Nat × Nat × Nat × Nat × Nat × Unit) => some (.base (.setupSync h
    (syncParams b d l v e t) false))) (h, p.txBandwidth.toNat, p.rxBandwidth.toNat, p.maxLatency.toNat, p.voiceSetting.toNat,
      p.effort.toNat, p.packetType.toNat, ()) : Option PCmd) = some (.base (.setupSync h p false))
  br_call []

theorem read_acceptSync (u : Unused) (a : Nat) (p : ConnParams) (h1 : a < 281474976710656) (h2 : p.voiceSetting.toNat < 1024) :
    hAcceptSync (octetsOf u (.base (.acceptSync a p))) = some (.base (.acceptSync a p)) := by
  have hf : fits bodyAcceptSynchronousConnection (a, p.txBandwidth.toNat, p.rxBandwidth.toNat, p.maxLatency.toNat,
    p.voiceSetting.toNat, p.effort.toNat, p.packetType.toNat, ()) 0 = true := by
    br_fits [bodyAcceptSynchronousConnection, h1, h2]
  have he : octets (enc bodyAcceptSynchronousConnection (a, p.txBandwidth.toNat, p.rxBandwidth.toNat, p.maxLatency.toNat,
    p.voiceSetting.toNat, p.effort.toNat, p.packetType.toNat, ()) []) = parameters u (.base (.acceptSync a p)) := by
    br_enc [bodyAcceptSynchronousConnection, octets_10_6 _ _ h2]
  have hread := fields_of 0x0429 bodyAcceptSynchronousConnection _ _ (by decide) (by decide) (by decide) hf he (by br_len)
  refine (congrArg (fun o => Option.bind o _) hread).trans ?_
  show ((fun ((a, b, d, l, v, e, t, _) : Nat × Nat × Nat × Nat × Nat × Nat × Nat × Unit) => some (.base (.acceptSync a
    (syncParams b d l v e t)))) (a, p.txBandwidth.toNat, p.rxBandwidth.toNat, p.maxLatency.toNat, p.voiceSetting.toNat,
      p.effort.toNat, p.packetType.toNat, ()) : Option PCmd) = some (.base (.acceptSync a p))
  br_call []

theorem read_rejectSync (u : Unused) (a r : Nat) (h1 : a < 281474976710656) (h2 : r < 256) :
    hRejectSync (octetsOf u (.base (.rejectSync a r))) = some (.base (.rejectSync a r)) := by
  have hf : fits bodyRejectSynchronousConnection (a, r, ()) 0 = true := by
    br_fits [bodyRejectSynchronousConnection, h1, h2]
  have he : octets (enc bodyRejectSynchronousConnection (a, r, ()) []) = parameters u (.base (.rejectSync a r)) := by
    br_enc [bodyRejectSynchronousConnection, mod8 h2]
  have hread := fields_of 0x042a bodyRejectSynchronousConnection _ _ (by decide) (by decide) (by decide) hf he (by br_len)
  refine (congrArg (fun o => Option.bind o _) hread).trans ?_
  show ((fun ((a, r, _) : Nat × Nat × Unit) => some (.base (.rejectSync a r))) (a, r, ()) : Option PCmd) = some (.base
    (.rejectSync a r))
  br_call []

theorem read_hold (u : Unused) (h x y : Nat) (h1 : h < 4096) (h2 : x < 65536) (h3 : y < 65536) :
    hHold (octetsOf u (.hold h x y)) = some (.hold h x y) := by
  have hf : fits bodyHoldMode (h, x, y, ()) 0 = true := by
    br_fits [bodyHoldMode, h1, h2, h3]
  have he : octets (enc bodyHoldMode (h, x, y, ()) []) = parameters u (.hold h x y) := by
    br_enc [bodyHoldMode, octets_12_4 _ _ h1, octets_12_4e _ h1]
  have hread := fields_of 0x0801 bodyHoldMode _ _ (by decide) (by decide) (by decide) hf he (by br_len)
  refine (congrArg (fun o => Option.bind o _) hread).trans ?_
  show ((fun ((h, x, y, _) : Nat × Nat × Nat × Unit) => some (.hold h x y)) (h, x, y, ()) : Option PCmd) = some (.hold h x y)
  br_call []

theorem read_sniff (u : Unused) (h x y n t : Nat) (h1 : h < 4096) (h2 : x < 65536) (h3 : y < 65536) (h4 : n < 65536) (h5 : t
  < 65536) :
    hSniff (octetsOf u (.sniff h x y n t)) = some (.sniff h x y n t) := by
  have hf : fits bodySniffMode (h, x, y, n, t, ()) 0 = true := by
    br_fits [bodySniffMode, h1, h2, h3, h4, h5]
  have he : octets (enc bodySniffMode (h, x, y, n, t, ()) []) = parameters u (.sniff h x y n t) := by
    br_enc [bodySniffMode, octets_12_4 _ _ h1, octets_12_4e _ h1]
  have hread := fields_of 0x0803 bodySniffMode _ _ (by decide) (by decide) (by decide) hf he (by br_len)
  refine (congrArg (fun o => Option.bind o _) hread).trans ?_
  show ((fun ((h, x, y, n, t, _) : Nat × Nat × Nat × Nat × Nat × Unit) => some (.sniff h x y n t)) (h, x, y, n, t, ()) :
    Option PCmd) = some (.sniff h x y n t)
  br_call []

theorem read_exitSniff (u : Unused) (h : Nat) (h1 : h < 4096) :
    hExitSniff (octetsOf u (.exitSniff h)) = some (.exitSniff h) := by
  have hf : fits bodyExitSniffMode (h, ()) 0 = true := by
    br_fits [bodyExitSniffMode, h1]
  have he : octets (enc bodyExitSniffMode (h, ()) []) = parameters u (.exitSniff h) := by
    br_enc [bodyExitSniffMode, octets_12_4 _ _ h1, octets_12_4e _ h1]
  have hread := fields_of 0x0804 bodyExitSniffMode _ _ (by decide) (by decide) (by decide) hf he (by br_len)
  refine (congrArg (fun o => Option.bind o _) hread).trans ?_
  show ((fun ((h, _) : Nat × Unit) => some (.exitSniff h)) (h, ()) : Option PCmd) = some (.exitSniff h)
  br_call []

theorem read_qos (u : Unused) (h s r b l v : Nat) (h1 : h < 4096) (h2 : s < 256) (h3 : r < 4294967296) (h4 : b < 4294967296)
  (h5 : l < 4294967296) (h6 : v < 4294967296) :
    hQos (octetsOf u (.qos h s r b l v)) = some (.qos h s r b l v) := by
  have hf : fits bodyQosSetup (h, s, r, b, l, v, ()) 0 = true := by
    br_fits [bodyQosSetup, h1, h2, h3, h4, h5, h6]
  have he : octets (enc bodyQosSetup (h, s, r, b, l, v, ()) []) = parameters u (.qos h s r b l v) := by
    br_enc [bodyQosSetup, octets_12_4 _ _ h1, octets_12_4e _ h1, mod8 h2]
  have hread := fields_of 0x0807 bodyQosSetup _ _ (by decide) (by decide) (by decide) hf he (by br_len)
  refine (congrArg (fun o => Option.bind o _) hread).trans ?_
  show ((fun ((h, s, r, b, l, v, _) : Nat × Nat × Nat × Nat × Nat × Nat × Unit) => some (.qos h s r b l v)) (h, s, r, b, l,
    v, ()) : Option PCmd) = some (.qos h s r b l v)
  br_call []

theorem read_role (u : Unused) (h : Nat) (h1 : h < 4096) :
    hRole (octetsOf u (.role h)) = some (.role h) := by
  have hf : fits bodyRoleDiscovery (h, ()) 0 = true := by
    br_fits [bodyRoleDiscovery, h1]
  have he : octets (enc bodyRoleDiscovery (h, ()) []) = parameters u (.role h) := by
    br_enc [bodyRoleDiscovery, octets_12_4 _ _ h1, octets_12_4e _ h1]
  have hread := fields_of 0x0809 bodyRoleDiscovery _ _ (by decide) (by decide) (by decide) hf he (by br_len)
  refine (congrArg (fun o => Option.bind o _) hread).trans ?_
  show ((fun ((h, _) : Nat × Unit) => some (.role h)) (h, ()) : Option PCmd) = some (.role h)
  br_call []

theorem read_switchRole (u : Unused) (a : Nat) (r : Role) (h1 : a < 281474976710656) :
    hSwitchRole (octetsOf u (.base (.switchRole a r))) = some (.base (.switchRole a r)) := by
  have hf : fits bodySwitchRole (a, ofRole r, ()) 0 = true := by
    br_fits [bodySwitchRole, h1]
  have he : octets (enc bodySwitchRole (a, ofRole r, ()) []) = parameters u (.base (.switchRole a r)) := by
    br_enc [bodySwitchRole]
  have hread := fields_of 0x080b bodySwitchRole _ _ (by decide) (by decide) (by decide) hf he (by br_len)
  refine (congrArg (fun o => Option.bind o _) hread).trans ?_
  show ((fun ((a, r, _) : Nat × Nat × Unit) => (role r).map (fun r => .base (.switchRole a r))) (a, ofRole r, ()) : Option
    PCmd) = some (.base (.switchRole a r))
  br_call []

theorem read_readPolicy (u : Unused) (h : Nat) (h1 : h < 4096) :
    hReadPolicy (octetsOf u (.readPolicy h)) = some (.readPolicy h) := by
  have hf : fits bodyReadLinkPolicySettings (h, ()) 0 = true := by
    br_fits [bodyReadLinkPolicySettings, h1]
  have he : octets (enc bodyReadLinkPolicySettings (h, ()) []) = parameters u (.readPolicy h) := by
    br_enc [bodyReadLinkPolicySettings, octets_12_4 _ _ h1, octets_12_4e _ h1]
  have hread := fields_of 0x080c bodyReadLinkPolicySettings _ _ (by decide) (by decide) (by decide) hf he (by br_len)
  refine (congrArg (fun o => Option.bind o _) hread).trans ?_
  show ((fun ((h, _) : Nat × Unit) => some (.readPolicy h)) (h, ()) : Option PCmd) = some (.readPolicy h)
  br_call []

theorem read_writePolicy (u : Unused) (h p : Nat) (h1 : h < 4096) (h2 : p < 65536) :
    hWritePolicy (octetsOf u (.base (.writePolicy h p))) = some (.base (.writePolicy h p)) := by
  have hf : fits bodyWriteLinkPolicySettings (h, p, ()) 0 = true := by
    br_fits [bodyWriteLinkPolicySettings, h1, h2]
  have he : octets (enc bodyWriteLinkPolicySettings (h, p, ()) []) = parameters u (.base (.writePolicy h p)) := by
    br_enc [bodyWriteLinkPolicySettings, octets_12_4 _ _ h1, octets_12_4e _ h1]
  have hread := fields_of 0x080d bodyWriteLinkPolicySettings _ _ (by decide) (by decide) (by decide) hf he (by br_len)
  refine (congrArg (fun o => Option.bind o _) hread).trans ?_
  show ((fun ((h, p, _) : Nat × Nat × Unit) => some (.base (.writePolicy h p))) (h, p, ()) : Option PCmd) = some (.base
    (.writePolicy h p))
  br_call []

theorem read_readDefault (u : Unused)  :
    hReadDefault (octetsOf u (.readDefault)) = some (.readDefault) := by
  have hf : fits bodyReadDefaultLinkPolicySettings () 0 = true := by
    br_fits [bodyReadDefaultLinkPolicySettings]
  have he : octets (enc bodyReadDefaultLinkPolicySettings () []) = parameters u (.readDefault) := by
    br_enc [bodyReadDefaultLinkPolicySettings]
  have hread := fields_of 0x080e bodyReadDefaultLinkPolicySettings _ _ (by decide) (by decide) (by decide) hf he (by br_len)
  refine (congrArg (fun o => Option.bind o _) hread).trans ?_
  show ((fun (_ : Unit) => some .readDefault) () : Option PCmd) = some (.readDefault)
  br_call []

theorem read_writeDefaultPolicy (u : Unused) (p : Nat) (h1 : p < 65536) :
    hWriteDefaultPolicy (octetsOf u (.base (.writeDefaultPolicy p))) = some (.base (.writeDefaultPolicy p)) := by
  have hf : fits bodyWriteDefaultLinkPolicySettings (p, ()) 0 = true := by
    br_fits [bodyWriteDefaultLinkPolicySettings, h1]
  have he : octets (enc bodyWriteDefaultLinkPolicySettings (p, ()) []) = parameters u (.base (.writeDefaultPolicy p)) := by
    br_enc [bodyWriteDefaultLinkPolicySettings]
  have hread := fields_of 0x080f bodyWriteDefaultLinkPolicySettings _ _ (by decide) (by decide) (by decide) hf he (by br_len)
  refine (congrArg (fun o => Option.bind o _) hread).trans ?_
  show ((fun ((p, _) : Nat × Unit) => some (.base (.writeDefaultPolicy p))) (p, ()) : Option PCmd) = some (.base
    (.writeDefaultPolicy p))
  br_call []

theorem read_flow (u : Unused) (h d s r k b l : Nat) (h1 : h < 4096) (h2 : d < 256) (h3 : s < 256) (h4 : r < 4294967296) (h5
  : k < 4294967296) (h6 : b < 4294967296) (h7 : l < 4294967296) :
    hFlow (octetsOf u (.flow h d s r k b l)) = some (.flow h d s r k b l) := by
  have hf : fits bodyFlowSpecification (h, d, s, r, k, b, l, ()) 0 = true := by
    br_fits [bodyFlowSpecification, h1, h2, h3, h4, h5, h6, h7]
  have he : octets (enc bodyFlowSpecification (h, d, s, r, k, b, l, ()) []) = parameters u (.flow h d s r k b l) := by
    br_enc [bodyFlowSpecification, octets_12_4 _ _ h1, octets_12_4e _ h1, mod8 h2, mod8 h3]
  have hread := fields_of 0x0810 bodyFlowSpecification _ _ (by decide) (by decide) (by decide) hf he (by br_len)
  refine (congrArg (fun o => Option.bind o _) hread).trans ?_
  show ((fun ((h, d, s, r, k, b, l, _) : Nat × Nat × Nat × Nat × Nat × Nat × Nat × Unit) => some (.flow h d s r k b l)) (h,
    d, s, r, k, b, l, ()) : Option PCmd) = some (.flow h d s r k b l)
  br_call []

theorem read_subrating (u : Unused) (h x y z : Nat) (h1 : h < 4096) (h2 : x < 65536) (h3 : y < 65536) (h4 : z < 65536) :
    hSubrating (octetsOf u (.subrating h x y z)) = some (.subrating h x y z) := by
  have hf : fits bodySniffSubrating (h, x, y, z, ()) 0 = true := by
    br_fits [bodySniffSubrating, h1, h2, h3, h4]
  have he : octets (enc bodySniffSubrating (h, x, y, z, ()) []) = parameters u (.subrating h x y z) := by
    br_enc [bodySniffSubrating, octets_12_4 _ _ h1, octets_12_4e _ h1]
  have hread := fields_of 0x0811 bodySniffSubrating _ _ (by decide) (by decide) (by decide) hf he (by br_len)
  refine (congrArg (fun o => Option.bind o _) hread).trans ?_
  show ((fun ((h, x, y, z, _) : Nat × Nat × Nat × Nat × Unit) => some (.subrating h x y z)) (h, x, y, z, ()) : Option PCmd) =
    some (.subrating h x y z)
  br_call []

theorem read_setMask (u : Unused) (m : Nat) (h1 : m < 18446744073709551616) :
    hSetMask (octetsOf u (.base (.setMask m))) = some (.base (.setMask m)) := by
  have hf : fits bodySetEventMask (m, ()) 0 = true := by
    br_fits [bodySetEventMask, h1]
  have he : octets (enc bodySetEventMask (m, ()) []) = parameters u (.base (.setMask m)) := by
    br_enc [bodySetEventMask]
  have hread := fields_of 0x0c01 bodySetEventMask _ _ (by decide) (by decide) (by decide) hf he (by br_len)
  refine (congrArg (fun o => Option.bind o _) hread).trans ?_
  show ((fun ((m, _) : Nat × Unit) => some (.base (.setMask m))) (m, ()) : Option PCmd) = some (.base (.setMask m))
  br_call []

theorem read_reset (u : Unused)  :
    hReset (octetsOf u (.base (.reset))) = some (.base (.reset)) := by
  have hf : fits bodyReset () 0 = true := by
    br_fits [bodyReset]
  have he : octets (enc bodyReset () []) = parameters u (.base (.reset)) := by
    br_enc [bodyReset]
  have hread := fields_of 0x0c03 bodyReset _ _ (by decide) (by decide) (by decide) hf he (by br_len)
  refine (congrArg (fun o => Option.bind o _) hread).trans ?_
  show ((fun (_ : Unit) => some (.base .reset)) () : Option PCmd) = some (.base (.reset))
  br_call []

theorem read_writePageTimeout (u : Unused) (t : Nat) (h1 : t < 65536) :
    hWritePageTimeout (octetsOf u (.base (.writePageTimeout t))) = some (.base (.writePageTimeout t)) := by
  have hf : fits bodyWritePageTimeout (t, ()) 0 = true := by
    br_fits [bodyWritePageTimeout, h1]
  have he : octets (enc bodyWritePageTimeout (t, ()) []) = parameters u (.base (.writePageTimeout t)) := by
    br_enc [bodyWritePageTimeout]
  have hread := fields_of 0x0c18 bodyWritePageTimeout _ _ (by decide) (by decide) (by decide) hf he (by br_len)
  refine (congrArg (fun o => Option.bind o _) hread).trans ?_
  show ((fun ((t, _) : Nat × Unit) => some (.base (.writePageTimeout t))) (t, ()) : Option PCmd) = some (.base
    (.writePageTimeout t))
  br_call []

theorem read_writeScanEnable (u : Unused) (i p : Bool) :
    hWriteScanEnable (octetsOf u (.base (.writeScanEnable i p))) = some (.base (.writeScanEnable i p)) := by
  have hf : fits bodyWriteScanEnable (yes i + 2 * yes p, ()) 0 = true := by
    br_fits [bodyWriteScanEnable]
  have he : octets (enc bodyWriteScanEnable (yes i + 2 * yes p, ()) []) = parameters u (.base (.writeScanEnable i p)) := by
    br_enc [bodyWriteScanEnable]
  have hread := fields_of 0x0c1a bodyWriteScanEnable _ _ (by decide) (by decide) (by decide) hf he (by br_len)
  refine (congrArg (fun o => Option.bind o _) hread).trans ?_
  show ((fun ((n, _) : Nat × Unit) => some (.base (.writeScanEnable (n == 3 || n == 1) (n == 3 || n == 2)))) (yes i + 2 * yes
    p, ()) : Option PCmd) = some (.base (.writeScanEnable i p))
  br_call []

theorem read_supervision (u : Unused) (h t : Nat) (h1 : h < 4096) (h2 : t < 65536) :
    hSupervision (octetsOf u (.supervision h t)) = some (.supervision h t) := by
  have hf : fits bodyWriteLinkSupervisionTimeout (h, t, ()) 0 = true := by
    br_fits [bodyWriteLinkSupervisionTimeout, h1, h2]
  have he : octets (enc bodyWriteLinkSupervisionTimeout (h, t, ()) []) = parameters u (.supervision h t) := by
    br_enc [bodyWriteLinkSupervisionTimeout, octets_12_4 _ _ h1, octets_12_4e _ h1]
  have hread := fields_of 0x0c37 bodyWriteLinkSupervisionTimeout _ _ (by decide) (by decide) (by decide) hf he (by br_len)
  refine (congrArg (fun o => Option.bind o _) hread).trans ?_
  show ((fun ((h, t, _) : Nat × Nat × Unit) => some (.supervision h t)) (h, t, ()) : Option PCmd) = some (.supervision h t)
  br_call []

theorem read_writeInquiryMode (u : Unused) (m : Nat) (h1 : m < 256) :
    hWriteInquiryMode (octetsOf u (.base (.writeInquiryMode m))) = some (.base (.writeInquiryMode m)) := by
  have hf : fits bodyWriteInquiryMode (m, ()) 0 = true := by
    br_fits [bodyWriteInquiryMode, h1]
  have he : octets (enc bodyWriteInquiryMode (m, ()) []) = parameters u (.base (.writeInquiryMode m)) := by
    br_enc [bodyWriteInquiryMode, mod8 h1]
  have hread := fields_of 0x0c45 bodyWriteInquiryMode _ _ (by decide) (by decide) (by decide) hf he (by br_len)
  refine (congrArg (fun o => Option.bind o _) hread).trans ?_
  show ((fun ((m, _) : Nat × Unit) => some (.base (.writeInquiryMode m))) (m, ()) : Option PCmd) = some (.base
    (.writeInquiryMode m))
  br_call []

theorem read_readRssi (u : Unused) (h : Nat) (h1 : h < 4096) :
    hReadRssi (octetsOf u (.readRssi h)) = some (.readRssi h) := by
  have hf : fits bodyReadRssi (h, ()) 0 = true := by
    br_fits [bodyReadRssi, h1]
  have he : octets (enc bodyReadRssi (h, ()) []) = parameters u (.readRssi h) := by
    br_enc [bodyReadRssi, octets_12_4 _ _ h1, octets_12_4e _ h1]
  have hread := fields_of 0x1405 bodyReadRssi _ _ (by decide) (by decide) (by decide) hf he (by br_len)
  refine (congrArg (fun o => Option.bind o _) hread).trans ?_
  show ((fun ((h, _) : Nat × Unit) => some (.readRssi h)) (h, ()) : Option PCmd) = some (.readRssi h)
  br_call []

theorem read_keySize (u : Unused) (h : Nat) (h1 : h < 4096) :
    hKeySize (octetsOf u (.keySize h)) = some (.keySize h) := by
  have hf : fits bodyReadEncryptionKeySize (h, ()) 0 = true := by
    br_fits [bodyReadEncryptionKeySize, h1]
  have he : octets (enc bodyReadEncryptionKeySize (h, ()) []) = parameters u (.keySize h) := by
    br_enc [bodyReadEncryptionKeySize, octets_12_4 _ _ h1, octets_12_4e _ h1]
  have hread := fields_of 0x1408 bodyReadEncryptionKeySize _ _ (by decide) (by decide) (by decide) hf he (by br_len)
  refine (congrArg (fun o => Option.bind o _) hread).trans ?_
  show ((fun ((h, _) : Nat × Unit) => some (.keySize h)) (h, ()) : Option PCmd) = some (.keySize h)
  br_call []

theorem read_leDataLength (u : Unused) (h o t : Nat) (h1 : h < 4096) (h2 : o < 65536) (h3 : t < 65536) :
    hLeDataLength (octetsOf u (.leDataLength h o t)) = some (.leDataLength h o t) := by
  have hf : fits bodyLeSetDataLength (h, o, t, ()) 0 = true := by
    br_fits [bodyLeSetDataLength, h1, h2, h3]
  have he : octets (enc bodyLeSetDataLength (h, o, t, ()) []) = parameters u (.leDataLength h o t) := by
    br_enc [bodyLeSetDataLength, octets_12_4 _ _ h1, octets_12_4e _ h1]
  have hread := fields_of 0x2022 bodyLeSetDataLength _ _ (by decide) (by decide) (by decide) hf he (by br_len)
  refine (congrArg (fun o => Option.bind o _) hread).trans ?_
  show ((fun ((h, o, t, _) : Nat × Nat × Nat × Unit) => some (.leDataLength h o t)) (h, o, t, ()) : Option PCmd) = some
    (.leDataLength h o t)
  br_call []

theorem read_lePhy (u : Unused) (h : Nat) (h1 : h < 4096) :
    hLePhy (octetsOf u (.lePhy h)) = some (.lePhy h) := by
  have hf : fits bodyLeReadPhy (h, ()) 0 = true := by
    br_fits [bodyLeReadPhy, h1]
  have he : octets (enc bodyLeReadPhy (h, ()) []) = parameters u (.lePhy h) := by
    br_enc [bodyLeReadPhy, octets_12_4 _ _ h1, octets_12_4e _ h1]
  have hread := fields_of 0x2030 bodyLeReadPhy _ _ (by decide) (by decide) (by decide) hf he (by br_len)
  refine (congrArg (fun o => Option.bind o _) hread).trans ?_
  show ((fun ((h, _) : Nat × Unit) => some (.lePhy h)) (h, ()) : Option PCmd) = some (.lePhy h)
  br_call []

theorem read_lePower (u : Unused) (h p : Nat) (h1 : h < 4096) (h2 : p < 256) :
    hLePower (octetsOf u (.lePower h p)) = some (.lePower h p) := by
  have hf : fits bodyLeReadRemoteTransmitPowerLevel (h, p, ()) 0 = true := by
    br_fits [bodyLeReadRemoteTransmitPowerLevel, h1, h2]
  have he : octets (enc bodyLeReadRemoteTransmitPowerLevel (h, p, ()) []) = parameters u (.lePower h p) := by
    br_enc [bodyLeReadRemoteTransmitPowerLevel, octets_12_4 _ _ h1, octets_12_4e _ h1, mod8 h2]
  have hread := fields_of 0x2077 bodyLeReadRemoteTransmitPowerLevel _ _ (by decide) (by decide) (by decide) hf he (by br_len)
  refine (congrArg (fun o => Option.bind o _) hread).trans ?_
  show ((fun ((h, p, _) : Nat × Nat × Unit) => some (.lePower h p)) (h, p, ()) : Option PCmd) = some (.lePower h p)
  br_call []

theorem read_leReporting (u : Unused) (h x y : Nat) (h1 : h < 4096) (h2 : x < 256) (h3 : y < 256) :
    hLeReporting (octetsOf u (.leReporting h x y)) = some (.leReporting h x y) := by
  have hf : fits bodyLeSetTransmitPowerReportingEnable (h, x, y, ()) 0 = true := by
    br_fits [bodyLeSetTransmitPowerReportingEnable, h1, h2, h3]
  have he : octets (enc bodyLeSetTransmitPowerReportingEnable (h, x, y, ()) []) = parameters u (.leReporting h x y) := by
    br_enc [bodyLeSetTransmitPowerReportingEnable, octets_12_4 _ _ h1, octets_12_4e _ h1, mod8 h2, mod8 h3]
  have hread := fields_of 0x207a bodyLeSetTransmitPowerReportingEnable _ _ (by decide) (by decide) (by decide) hf he (by br_len)
  refine (congrArg (fun o => Option.bind o _) hread).trans ?_
  show ((fun ((h, x, y, _) : Nat × Nat × Nat × Unit) => some (.leReporting h x y)) (h, x, y, ()) : Option PCmd) = some
    (.leReporting h x y)
  br_call []

theorem read_inquiry (u : Unused) (k t n : Nat) (h1 : k < 64) (h2 : t < 256) (h3 : n < 256) :
    hInquiry (octetsOf u (.base (.inquiry k t n))) = some (.base (.inquiry k t n)) := by
  have hf : fits bodyInquiry ((k, ()), t, n, ()) 0 = true := by
    br_fits [bodyInquiry, structLap, h1, h2, h3]
  have he : octets (enc bodyInquiry ((k, ()), t, n, ()) []) = parameters u (.base (.inquiry k t n)) := by
    br_enc [bodyInquiry, structLap, octets_lap _ _ h1, mod8 h2, mod8 h3]
  have hread := fields_of 0x0401 bodyInquiry _ _ (by decide) (by decide) (by decide) hf he
    (by simp [parameters, ofLap, le_length])
  exact congrArg (fun o => Option.bind o _) hread

theorem laps_octets (ks : List Nat) (h : ∀ k ∈ ks, k < 64) :
    octets ((ks.map (fun k => ((k, ()) : Nat × Unit))).flatMap (fun x => enc structLap x [])) = ks.flatMap ofLap := by
  induction ks with
  | nil => rfl
  | cons k ks ih =>
    have h1 := ih (fun j hj => h j (List.mem_cons_of_mem _ hj))
    have h2 := octets_lap k ((ks.map (fun k => ((k, ()) : Nat × Unit))).flatMap (fun x => enc structLap x [])) (h k
      List.mem_cons_self)
    rw [h1] at h2
    refine Eq.trans ?_ h2
    show octets ((bits 6 k ++ (bits 2 0 ++ (bits 16 0x9e8b ++ []))) ++
      (ks.map (fun k => ((k, ()) : Nat × Unit))).flatMap (fun x => enc structLap x [])) = _
    simp only [List.append_assoc, List.nil_append]

theorem laps_fits (ks : List Nat) (h : ∀ k ∈ ks, k < 64) :
    (ks.map (fun k => ((k, ()) : Nat × Unit))).all (fun x => fits structLap x 0) = true := by
  rw [List.all_map, List.all_eq_true]
  intro k hk
  have := h k hk
  simp [structLap, fits, this]

theorem laps_length (ks : List Nat) : (ks.flatMap ofLap).length = 3 * ks.length := by
  induction ks with
  | nil => rfl
  | cons k ks ih =>
    have : (ofLap k).length = 3 := le_length 3 _
    simp only [List.flatMap_cons, List.length_append, List.length_cons, ih, this]; omega

theorem read_writeIac (u : Unused) (ks : List Nat) (h1 : ks.length < 64) (h2 : ∀ k ∈ ks, k < 64) :
    hWriteIac (octetsOf u (.base (.writeIac ks))) = some (.base (.writeIac ks)) := by
  have hl : (ks.map (fun k => ((k, ()) : Nat × Unit))).length = ks.length := List.length_map _
  have hn : ks.length < 256 := by omega
  have hf : fits bodyWriteCurrentIacLap (ks.map (fun k => (k, ())), ()) 0 = true := by
    br_fits [bodyWriteCurrentIacLap, announced]
    exact ⟨(List.length_map _).symm ▸ hn, List.all_eq_true.mp (laps_fits ks h2)⟩
  have he : octets (enc bodyWriteCurrentIacLap (ks.map (fun k => (k, ())), ()) []) = parameters u (.base (.writeIac ks)) := by
    have h3 := laps_octets ks h2
    show octets (bits 8 (ks.map (fun k => ((k, ()) : Nat × Unit))).length ++
      (padTo 0 ((ks.map (fun k => ((k, ()) : Nat × Unit))).flatMap (fun x => enc structLap x [])) ++ [])) = ks.length ::
        ks.flatMap ofLap
    rw [hl, octets_bits8, mod8 hn, List.append_nil, padTo_zero, ← h3]
  have hread := fields_of 0x0c3a bodyWriteCurrentIacLap _ _ (by decide) (by decide) (by decide) hf he
    (by simp only [parameters, List.length_cons, laps_length]; omega)
  refine (congrArg (fun o => Option.bind o _) hread).trans ?_
  show some (PCmd.base (.writeIac ((ks.map (fun k => ((k, ()) : Nat × Unit))).map (·.1)))) = _
  rw [List.map_map]
  exact congrArg (fun l => some (PCmd.base (.writeIac l))) (List.map_id ks)

end Verif.WireBr
