import Verif.WireAir.Lemmas

/-!
# C132: what one LE controller sends over the air, the other receives

**C132.** A packet that a controller sends about an LE connection — PHYs, encryption, features, version, data, subrates or
connection parameters — is received by the other with its sender, its receiver and every value, and packets of different kinds or
with different values have different octets.

The octets are those of `Spec.lean`; the controllers write and read them through the layouts of link_layer_packets.pdl.
-/
namespace Verif.WireAir

open Verif.Pdl Verif.Pdl.LinkLayer
open Verif.Wire (data octets_16)
open Verif.WireBr (octet octets_8le)
open Verif.WireLink (code)

/-- The types and layouts of the packets. -/
def layouts : List (Nat × Fmt) := [
  (1, bodyAcl), (27, bodyReadRemoteVersionInformation), (28, bodyReadRemoteVersionInformationResponse),
  (32, bodyLeEncryptConnection), (33, bodyLeEncryptConnectionResponse), (44, bodyLeReadRemoteFeatures),
  (45, bodyLeReadRemoteFeaturesResponse), (46, bodyLeConnectionParameterRequest), (47, bodyLeConnectionParameterUpdate),
  (80, bodyLlPhyReq), (81, bodyLlPhyRsp), (82, bodyLlPhyUpdateInd), (83, bodyLlSubrateReq), (84, bodyLlSubrateInd)]

/-- What is sent has the octets of the specification. -/
theorem C132_octets (s d : Nat) (p : Air) : send s d p = onAir s d p := by
  cases p with
  | link p => cases p with
    | phyReq tx rx => exact of_enc 80 _ s d _ _ (by decide) (by air_enc [bodyLlPhyReq])
    | phyRsp tx rx => exact of_enc 81 _ s d _ _ (by decide) (by air_enc [bodyLlPhyRsp])
    | phyInd a b => exact of_enc 82 _ s d _ _ (by decide) (by air_enc [bodyLlPhyUpdateInd]; rfl)
    | enc r e k =>
      refine of_enc 32 _ s d _ _ (by decide) ?_
      show octets (padTo 0 ((r.map octet).flatMap (fun y => enc (.uint 8 .done) y [])) ++ (bits 16 e ++
        (padTo 0 ((k.map octet).flatMap (fun y => enc (.uint 8 .done) y [])) ++ []))) = _
      rw [bytes_octets, octets_16, bytes_octets]; simp [values, octets]
    | encRsp st k =>
      refine of_enc 33 _ s d _ _ (by decide) ?_
      show octets (bits 8 st ++ (padTo 0 (((List.replicate 8 (0 : UInt8)).map octet).flatMap (fun y => enc (.uint 8 .done) y [])) ++
        (bits 16 0 ++ (padTo 0 ((k.map octet).flatMap (fun y => enc (.uint 8 .done) y [])) ++ [])))) = _
      rw [octets_8le, bytes_octets, octets_16, bytes_octets]; simp [values, octets]; rfl
    | featReq => exact of_enc 44 _ s d _ _ (by decide) (by air_enc [bodyLeReadRemoteFeatures])
    | featRsp f st => exact of_enc 45 _ s d _ _ (by decide) (by air_enc [bodyLeReadRemoteFeaturesResponse, octets_64])
    | verReq => exact of_enc 27 _ s d _ _ (by decide) (by air_enc [bodyReadRemoteVersionInformation])
    | verRsp v x c => exact of_enc 28 _ s d _ _ (by decide) (by air_enc [bodyReadRemoteVersionInformationResponse])
    | acl pb bc x =>
      refine of_enc 1 _ s d _ _ (by decide) ?_
      show octets (bits 8 pb ++ (bits 8 bc ++ (padTo 0 ((x.map octet).flatMap (fun y => enc (.uint 8 .done) y [])) ++ []))) = _
      rw [octets_8le, octets_8le, bytes_octets]; simp [values, octets]
  | sub p => cases p with
    | subrateReq a b l c t => exact of_enc 83 _ s d _ _ (by decide) (by air_enc [bodyLlSubrateReq])
    | subrateInd st f l c t => exact of_enc 84 _ s d _ _ (by decide) (by air_enc [bodyLlSubrateInd]; rfl)
    | paramReq a b l t => exact of_enc 46 _ s d _ _ (by decide) (by air_enc [bodyLeConnectionParameterRequest])
    | paramUpdate st i l t => exact of_enc 47 _ s d _ _ (by decide) (by air_enc [bodyLeConnectionParameterUpdate])

/-- What is sent is received. -/
theorem C132_receive (s d : Nat) (p : Air) (hs : Address s) (hd : Address d) (h : Fits p) :
    receive (send s d p) = some (s, d, p) := by
  cases p with
  | link p => cases p with
    | phyReq tx rx =>
      obtain ⟨h1, h2⟩ := built 80 bodyLlPhyReq s d (tx, rx, ()) (by decide) hs hd (by decide) (by air_fits [bodyLlPhyReq, h.1, h.2])
      simp only [receive, send, h1, h2, Option.map_some]
    | phyRsp tx rx =>
      obtain ⟨h1, h2⟩ := built 81 bodyLlPhyRsp s d (tx, rx, ()) (by decide) hs hd (by decide) (by air_fits [bodyLlPhyRsp, h.1, h.2])
      simp only [receive, send, h1, h2, Option.map_some]
    | phyInd a b =>
      obtain ⟨h1, h2⟩ := built 82 bodyLlPhyUpdateInd s d (a, b, 0, ()) (by decide) hs hd (by decide)
        (by air_fits [bodyLlPhyUpdateInd, h.1, h.2])
      simp only [receive, send, h1, h2, Option.map_some]
    | enc r e k =>
      obtain ⟨h1, h2⟩ := built 32 bodyLeEncryptConnection s d (r.map octet, e, k.map octet, ()) (by decide) hs hd (by decide)
        (by air_fits [bodyLeEncryptConnection, h.2.1]
            exact ⟨⟨array_fits r, array_length h.1⟩, array_fits k, array_length h.2.2⟩)
      simp only [receive, send, h1, h2, Option.map_some]
      exact (congrArg (fun a => some (s, d, Air.link (.enc a e (data (k.map octet))))) (data_octet r)).trans
        (congrArg (fun b => some (s, d, Air.link (.enc r e b))) (data_octet k))
    | encRsp st k =>
      obtain ⟨h1, h2⟩ := built 33 bodyLeEncryptConnectionResponse s d
        (st, (List.replicate 8 (0 : UInt8)).map octet, 0, k.map octet, ()) (by decide) hs hd (by decide)
        (by air_fits [bodyLeEncryptConnectionResponse, h.1]
            exact ⟨⟨array_fits (List.replicate 8 0), rfl⟩, array_fits k, array_length h.2⟩)
      simp only [receive, send, h1, h2, Option.map_some]
      exact congrArg (fun a => some (s, d, Air.link (.encRsp st a))) (data_octet k)
    | featReq =>
      obtain ⟨h1, h2⟩ := built 44 bodyLeReadRemoteFeatures s d () (by decide) hs hd (by decide) rfl
      simp only [receive, send, h1, h2, Option.map_some]
    | featRsp f st =>
      obtain ⟨h1, h2⟩ := built 45 bodyLeReadRemoteFeaturesResponse s d (f, st, ()) (by decide) hs hd (by decide)
        (by air_fits [bodyLeReadRemoteFeaturesResponse, h.1, h.2])
      simp only [receive, send, h1, h2, Option.map_some]
    | verReq =>
      obtain ⟨h1, h2⟩ := built 27 bodyReadRemoteVersionInformation s d () (by decide) hs hd (by decide) rfl
      simp only [receive, send, h1, h2, Option.map_some]
    | verRsp v x c =>
      obtain ⟨h1, h2⟩ := built 28 bodyReadRemoteVersionInformationResponse s d (v, x, c, ()) (by decide) hs hd (by decide)
        (by air_fits [bodyReadRemoteVersionInformationResponse, h.1, h.2.1, h.2.2])
      simp only [receive, send, h1, h2, Option.map_some]
    | acl pb bc x =>
      obtain ⟨h1, h2⟩ := built 1 bodyAcl s d (pb, bc, x.map octet, ()) (by decide) hs hd (by decide)
        (by air_fits [bodyAcl, h.1, h.2]; exact array_fits x)
      simp only [receive, send, h1, h2, Option.map_some]
      exact congrArg (fun a => some (s, d, Air.link (.acl pb bc a))) (data_octet x)
  | sub p => cases p with
    | subrateReq a b l c t =>
      obtain ⟨h1, h2⟩ := built 83 bodyLlSubrateReq s d (a, b, l, c, t, ()) (by decide) hs hd (by decide)
        (by air_fits [bodyLlSubrateReq, h.1, h.2.1, h.2.2.1, h.2.2.2.1, h.2.2.2.2])
      simp only [receive, send, h1, h2, Option.map_some]
    | subrateInd st f l c t =>
      have hk := WireLink.ofReason_lt st h.1
      obtain ⟨h1, h2⟩ := built 84 bodyLlSubrateInd s d (code st, f, 0, l, c, t, ()) (by decide) hs hd (by decide)
        (by air_fits [bodyLlSubrateInd, WireLink.code_of, hk, h.2.1, h.2.2.1, h.2.2.2.1, h.2.2.2.2])
      simp only [receive, send, h1, h2, Option.map_some]
      rw [WireLink.code_of, WireLink.reason_of st h.1]
    | paramReq a b l t =>
      obtain ⟨h1, h2⟩ := built 46 bodyLeConnectionParameterRequest s d (a, b, l, t, ()) (by decide) hs hd (by decide)
        (by air_fits [bodyLeConnectionParameterRequest, h.1, h.2.1, h.2.2.1, h.2.2.2])
      simp only [receive, send, h1, h2, Option.map_some]
    | paramUpdate st i l t =>
      have hk := WireLink.ofReason_lt st h.1
      obtain ⟨h1, h2⟩ := built 47 bodyLeConnectionParameterUpdate s d (code st, i, l, t, ()) (by decide) hs hd (by decide)
        (by air_fits [bodyLeConnectionParameterUpdate, WireLink.code_of, hk, h.2.1, h.2.2.1, h.2.2.2])
      simp only [receive, send, h1, h2, Option.map_some]
      rw [WireLink.code_of, WireLink.reason_of st h.1]

/-- Different packets have different octets, also in the octets of the specification. -/
theorem C132_distinct (s d s' d' : Nat) (p q : Air) (hs : Address s) (hd : Address d) (hs' : Address s') (hd' : Address d')
    (h : Fits p) (h' : Fits q) (he : onAir s d p = onAir s' d' q) : s = s' ∧ d = d' ∧ p = q := by
  have h1 := C132_receive s d p hs hd h
  rw [C132_octets, he, ← C132_octets, C132_receive s' d' q hs' hd' h'] at h1
  cases h1
  exact ⟨rfl, rfl, rfl⟩

/-- A sequence of packets is received as it was sent. -/
theorem C132_all (s d : Nat) (hs : Address s) (hd : Address d) (l : List Air) (h : ∀ p ∈ l, Fits p) :
    (l.map (send s d)).map receive = l.map (fun p => some (s, d, p)) := by
  rw [List.map_map]
  exact List.map_congr_left fun p hp => C132_receive s d p hs hd (h p hp)

/-- What a controller sends on a command of its host fits the packets, and its members keep their widths. -/
theorem C132_command (d : Link.Dev) (c : Link.Cmd) (o : Link.Out) (hd : Sound d) (hc : Args c) (hr : Link.command d c = some o) :
    Sound o.dev ∧ ∀ x ∈ o.out, Fits (.link x.2) := by
  obtain ⟨k1, k2, k3, k4, k5, k6, k7⟩ := hd
  cases c with
  | setDefaultPhy a b tx rx =>
    simp only [Link.command, Link.setDefaultPhy] at hr
    repeat' split at hr
    all_goals cases hr
    all_goals refine ⟨?_, by simp⟩
    all_goals first
      | exact ⟨k1, k2, k3, k4, k5, k6, k7⟩
      | exact ⟨k1, wanted_lt k1 a hc.1, wanted_lt k1 b hc.2, k4, k5, k6, k7⟩
  | setPhy h a b tx rx =>
    simp only [Link.command, Link.setPhy] at hr
    repeat' split at hr
    all_goals cases hr
    all_goals refine ⟨⟨k1, k2, k3, k4, k5, k6, k7⟩, ?_⟩
    all_goals simp [Fits, wanted_lt k1 _ hc.1, wanted_lt k1 _ hc.2]
  | enable h r e k =>
    simp only [Link.command, Link.enable] at hr
    split at hr
    all_goals cases hr
    · exact ⟨⟨k1, k2, k3, k4, k5, k6, k7⟩, by simp⟩
    · refine ⟨⟨k1, k2, k3, k4, k5, k6, ?_⟩, by simp⟩
      intro x hx
      rcases List.mem_append.mp hx with hx | hx
      · exact k7 x hx
      · rw [List.mem_singleton.mp hx]; exact hc
  | reply h k =>
    have hk : k.length = 16 := hc
    simp only [Link.command, Link.reply] at hr
    repeat' split at hr
    all_goals cases hr
    all_goals exact ⟨⟨k1, k2, k3, k4, k5, k6, k7⟩, by simp [Fits, hk]⟩
  | acl h pb bc x =>
    have h1 : pb < 256 := Nat.lt_of_lt_of_le hc.1 (by decide)
    have h2 : bc < 256 := Nat.lt_of_lt_of_le hc.2 (by decide)
    simp only [Link.command, Link.sendAcl] at hr
    repeat' split at hr
    all_goals cases hr
    all_goals exact ⟨⟨k1, k2, k3, k4, k5, k6, k7⟩, by simp [Fits, h1, h2]⟩
  | _ =>
    simp only [Link.command, Link.negative, Link.ask] at hr
    repeat' split at hr
    all_goals cases hr
    all_goals exact ⟨⟨k1, k2, k3, k4, k5, k6, k7⟩, by simp [Fits, Link.keyMissing]⟩

/-- So does what it sends from the task of a command. -/
theorem C132_task (d : Link.Dev) (o : Link.Out) (hd : Sound d) (hr : Link.runTask d = some o) :
    Sound o.dev ∧ ∀ x ∈ o.out, Fits (.link x.2) := by
  obtain ⟨k1, k2, k3, k4, k5, k6, k7⟩ := hd
  simp only [Link.runTask] at hr
  split at hr
  · cases hr; exact ⟨⟨k1, k2, k3, k4, k5, k6, k7⟩, by simp⟩
  · rename_i e l he
    rw [he] at k7
    have h1 := k7 e (List.mem_cons_self ..)
    have h2 : ∀ e' ∈ l, _ := fun e' h' => k7 e' (List.mem_cons_of_mem _ h')
    split at hr
    all_goals cases hr
    · exact ⟨⟨k1, k2, k3, k4, k5, k6, h2⟩, by simp⟩
    · refine ⟨⟨k1, k2, k3, k4, k5, k6, h2⟩, ?_⟩
      intro x hx
      rw [List.mem_singleton.mp hx]; exact h1

/-- And what it answers to a packet, whatever that packet is. -/
theorem C132_answer (d : Link.Dev) (h : Nat) (p : Link.Pkt) (o : Link.Out) (hd : Sound d) (hr : Link.receive d h p = some o) :
    Sound o.dev ∧ ∀ x ∈ o.out, Fits (.link x.2) := by
  obtain ⟨k1, k2, k3, k4, k5, k6, k7⟩ := hd
  simp only [Link.receive] at hr
  split at hr
  · cases hr; exact ⟨⟨k1, k2, k3, k4, k5, k6, k7⟩, by simp⟩
  · cases p <;> simp only [Link.onPhyReq, Link.onPhyRsp, Link.onPhyInd, Link.onEnc, Link.onEncRsp, Link.onFeatRsp] at hr
    all_goals repeat' split at hr
    all_goals cases hr
    all_goals refine ⟨?_, by simp [Fits, k2, k3, k4, k5, k6, indicate_lt, Nat.mod_lt]⟩
    all_goals first
      | exact ⟨k1, k2, k3, k4, k5, k6, k7⟩
      | (split <;> exact ⟨k1, k2, k3, k4, k5, k6, k7⟩)

/-- The layouts are declared in link_layer_packets.pdl, each with its type. -/
theorem C132_layouts : ∀ e ∈ layouts, ∃ name, (⟨name, [⟨bodyLinkLayerPacket, [(0, e.1)]⟩, ⟨e.2, []⟩]⟩ : Pdl.Packet) ∈
    packetsLinkLayerPacket := by
  intro e he
  simp only [layouts, List.mem_cons, List.not_mem_nil, or_false] at he
  rcases he with rfl | rfl | rfl | rfl | rfl | rfl | rfl | rfl | rfl | rfl | rfl | rfl | rfl | rfl
  · exact ⟨"Acl", List.mem_of_getElem? (i := 1) rfl⟩
  · exact ⟨"ReadRemoteVersionInformation", List.mem_of_getElem? (i := 29) rfl⟩
  · exact ⟨"ReadRemoteVersionInformationResponse", List.mem_of_getElem? (i := 30) rfl⟩
  · exact ⟨"LeEncryptConnection", List.mem_of_getElem? (i := 33) rfl⟩
  · exact ⟨"LeEncryptConnectionResponse", List.mem_of_getElem? (i := 34) rfl⟩
  · exact ⟨"LeReadRemoteFeatures", List.mem_of_getElem? (i := 35) rfl⟩
  · exact ⟨"LeReadRemoteFeaturesResponse", List.mem_of_getElem? (i := 36) rfl⟩
  · exact ⟨"LeConnectionParameterRequest", List.mem_of_getElem? (i := 37) rfl⟩
  · exact ⟨"LeConnectionParameterUpdate", List.mem_of_getElem? (i := 38) rfl⟩
  · exact ⟨"LlPhyReq", List.mem_of_getElem? (i := 48) rfl⟩
  · exact ⟨"LlPhyRsp", List.mem_of_getElem? (i := 49) rfl⟩
  · exact ⟨"LlPhyUpdateInd", List.mem_of_getElem? (i := 50) rfl⟩
  · exact ⟨"LlSubrateReq", List.mem_of_getElem? (i := 51) rfl⟩
  · exact ⟨"LlSubrateInd", List.mem_of_getElem? (i := 52) rfl⟩

/-! ### Two connected controllers -/

theorem over_fits {h : Nat} {o : List (Nat × Link.Pkt)} (ho : ∀ x ∈ o, Fits (.link x.2)) : ∀ p ∈ Link.over h o, Fits (.link p) := by
  intro p hp
  simp only [Link.over, List.mem_filterMap] at hp
  obtain ⟨x, hx, he⟩ := hp
  split at he
  · cases he; exact ho x hx
  · cases he

/-- The members of both controllers have their widths, and all packets on their way fit. -/
def Good (n : Link.Net) : Prop :=
  Sound n.a ∧ Sound n.b ∧ (∀ p ∈ n.toA, Fits (.link p)) ∧ ∀ p ∈ n.toB, Fits (.link p)

theorem good_putA {n : Link.Net} {x : Link.NAct} {q : List Link.Pkt} {o : Link.Out} (hn : Good n)
    (hq : ∀ p ∈ q, Fits (.link p)) (ho : Sound o.dev ∧ ∀ x ∈ o.out, Fits (.link x.2)) : Good (Link.putA n x q o).1 := by
  refine ⟨ho.1, hn.2.1, hq, ?_⟩
  intro p hp
  rcases List.mem_append.mp hp with hp | hp
  · exact hn.2.2.2 p hp
  · exact over_fits ho.2 p hp

theorem good_putB {n : Link.Net} {x : Link.NAct} {q : List Link.Pkt} {o : Link.Out} (hn : Good n)
    (hq : ∀ p ∈ q, Fits (.link p)) (ho : Sound o.dev ∧ ∀ x ∈ o.out, Fits (.link x.2)) : Good (Link.putB n x q o).1 := by
  refine ⟨hn.1, ho.1, ?_, hq⟩
  intro p hp
  rcases List.mem_append.mp hp with hp | hp
  · exact hn.2.2.1 p hp
  · exact over_fits ho.2 p hp

/-- The commands of a step have arguments of their widths. -/
def StepArgs : Link.NAct → Prop
  | .hostA c => Args c
  | .hostB c => Args c
  | _ => True

theorem good_step {n m : Link.Net} {x : Link.NAct} {s : Link.Seen} (hn : Good n) (hx : StepArgs x)
    (hr : Link.nstep n x = some (m, s)) : Good m := by
  cases x with
  | hostA c =>
    obtain ⟨o, ho, he⟩ := Option.map_eq_some_iff.mp hr
    cases he; exact good_putA (x := .taskA) hn hn.2.2.1 (C132_command _ _ _ hn.1 hx ho)
  | hostB c =>
    obtain ⟨o, ho, he⟩ := Option.map_eq_some_iff.mp hr
    cases he; exact good_putB (x := .taskB) hn hn.2.2.2 (C132_command _ _ _ hn.2.1 hx ho)
  | taskA =>
    obtain ⟨o, ho, he⟩ := Option.map_eq_some_iff.mp hr
    cases he; exact good_putA (x := .taskA) hn hn.2.2.1 (C132_task _ _ hn.1 ho)
  | taskB =>
    obtain ⟨o, ho, he⟩ := Option.map_eq_some_iff.mp hr
    cases he; exact good_putB (x := .taskB) hn hn.2.2.2 (C132_task _ _ hn.2.1 ho)
  | arriveA =>
    simp only [Link.nstep] at hr
    split at hr
    · cases hr; exact hn
    · rename_i p q hq
      obtain ⟨o, ho, he⟩ := Option.map_eq_some_iff.mp hr
      cases he
      exact good_putA (x := .taskA) hn (fun p' hp' => hn.2.2.1 p' (hq ▸ List.mem_cons_of_mem _ hp')) (C132_answer _ _ _ _ hn.1 ho)
  | arriveB =>
    simp only [Link.nstep] at hr
    split at hr
    · cases hr; exact hn
    · rename_i p q hq
      obtain ⟨o, ho, he⟩ := Option.map_eq_some_iff.mp hr
      cases he
      exact good_putB (x := .taskB) hn (fun p' hp' => hn.2.2.2 p' (hq ▸ List.mem_cons_of_mem _ hp')) (C132_answer _ _ _ _ hn.2.1 ho)
  | otherA h p =>
    simp only [Link.nstep] at hr
    split at hr
    · cases hr; exact hn
    · obtain ⟨o, ho, he⟩ := Option.map_eq_some_iff.mp hr
      cases he; exact good_putA (x := .taskA) hn hn.2.2.1 (C132_answer _ _ _ _ hn.1 ho)
  | otherB h p =>
    simp only [Link.nstep] at hr
    split at hr
    · cases hr; exact hn
    · obtain ⟨o, ho, he⟩ := Option.map_eq_some_iff.mp hr
      cases he; exact good_putB (x := .taskB) hn hn.2.2.2 (C132_answer _ _ _ _ hn.2.1 ho)

/-- Whatever the hosts do and in whatever order packets arrive: the octets of every packet on its way between two connected
controllers are received as that packet. -/
theorem C132_net (n m : Link.Net) (xs : List Link.NAct) (l : List Link.Seen) (ha : Sound n.a) (hb : Sound n.b)
    (h1 : n.toA = []) (h2 : n.toB = []) (hx : ∀ c, .hostA c ∈ xs ∨ .hostB c ∈ xs → Args c) (hr : Link.nrun n xs = some (m, l))
    (a b : Nat) (hA : Address a) (hB : Address b) :
    (∀ p ∈ m.toB, receive (send a b (.link p)) = some (a, b, .link p)) ∧
    ∀ p ∈ m.toA, receive (send b a (.link p)) = some (b, a, .link p) := by
  have hg : Good n := ⟨ha, hb, by simp [h1], by simp [h2]⟩
  have key : ∀ (xs : List Link.NAct) (n : Link.Net) (l : List Link.Seen), Good n →
      (∀ c, .hostA c ∈ xs ∨ .hostB c ∈ xs → Args c) → Link.nrun n xs = some (m, l) → Good m := by
    intro xs
    induction xs with
    | nil => intro n l hn _ hr; cases hr; exact hn
    | cons x xs ih =>
      intro n l hn hx hr
      simp only [Link.nrun] at hr
      split at hr
      · cases hr
      · rename_i n' s hs
        obtain ⟨⟨m', l'⟩, hm, he⟩ := Option.map_eq_some_iff.mp hr
        cases he
        refine ih n' l' (good_step hn ?_ hs) (fun c hc => hx c (hc.imp (List.mem_cons_of_mem _) (List.mem_cons_of_mem _))) hm
        cases x with
        | hostA c => exact hx c (.inl (List.mem_cons_self ..))
        | hostB c => exact hx c (.inr (List.mem_cons_self ..))
        | _ => trivial
  have hm := key xs n l hg hx hr
  exact ⟨fun p hp => C132_receive a b _ hA hB (hm.2.2.2 p hp), fun p hp => C132_receive b a _ hB hA (hm.2.2.1 p hp)⟩

/-! ### Subrates and connection parameters -/

/-- What a controller sends on a command about subrates or connection parameters fits the packets. -/
theorem C132_subcommand (e e' : Sub.End) (c : Sub.Cmd) (st : Sub.Status) (ps : List Sub.Pdu) (es : List Sub.Ev) (hc : SubArgs c)
    (hr : Sub.command e c = .ok st e' ps es) : ∀ p ∈ ps, Fits (.sub p) := by
  cases c with
  | subrateRequest a b l c t =>
    simp only [Sub.command, Sub.subrateRequest] at hr
    iterate 11
      rcases Sub.ite_split hr with ⟨_, hr⟩ | ⟨_, hr⟩
      · cases hr <;> simp
    obtain ⟨k1, k2, k3, k4, k5⟩ := hc
    cases ho : e.role <;> simp only [ho] at hr <;> cases hr
    all_goals simp [Fits, WireLink.Known, k1, k2, k3, k4, k5]
  | connectionUpdate a b l t =>
    obtain ⟨k1, k2, k3, k4⟩ := hc
    simp only [Sub.command, Sub.connectionUpdate] at hr
    split at hr
    all_goals cases hr
    all_goals simp [Fits, WireLink.Known, k1, k2, k3, k4]
  | paramReply a b l t x y =>
    obtain ⟨k1, k2, k3, k4, _⟩ := hc
    simp only [Sub.command, Sub.paramReply] at hr
    repeat' split at hr
    all_goals cases hr
    all_goals simp [Fits, WireLink.Known, k1, k3, k4]
  | paramRefuse q =>
    have hq : WireLink.Known q := hc
    cases hr
    simp [Fits, hq]

/-- So does what it answers to such a packet. -/
theorem C132_subanswer (e e' : Sub.End) (p : Sub.Pdu) (st : Sub.Status) (ps : List Sub.Pdu) (es : List Sub.Ev) (h : Fits (.sub p))
    (hr : Sub.incoming e p = .ok st e' ps es) : ∀ q ∈ ps, Fits (.sub q) := by
  cases p with
  | subrateReq a b l c t =>
    obtain ⟨k1, k2, k3, k4, k5⟩ := h
    simp only [Sub.incoming, Sub.incomingSubrateReq] at hr
    rcases Sub.ite_split hr with ⟨_, hr⟩ | ⟨_, hr⟩; · cases hr
    rcases Sub.ite_split hr with ⟨_, hr⟩ | ⟨_, hr⟩; · cases hr
    rcases Sub.ite_split hr with ⟨_, hr⟩ | ⟨_, hr⟩
    · cases hr; simp [Fits, WireLink.Known]
    · cases hr
      simp only [List.mem_singleton, forall_eq]
      exact ⟨trivial, Nat.lt_of_le_of_lt (Nat.min_le_left ..) k2, Nat.lt_of_le_of_lt (Nat.min_le_left ..) k3,
        Nat.lt_of_le_of_lt (Nat.min_le_right ..) (Nat.mod_lt _ (by decide)), Nat.lt_of_le_of_lt (Nat.min_le_left ..) k5⟩
  | subrateInd s f l c t =>
    simp only [Sub.incoming, Sub.incomingSubrateInd] at hr
    repeat' split at hr
    all_goals cases hr
    all_goals simp
  | paramReq a b l t =>
    simp only [Sub.incoming, Sub.incomingParamReq] at hr
    split at hr
    all_goals cases hr
    all_goals simp [Fits, WireLink.Known]
  | paramUpdate s i l t =>
    simp only [Sub.incoming, Sub.incomingParamUpdate] at hr
    split at hr
    all_goals cases hr
    all_goals simp

/-- Whatever the hosts do and in whatever order packets arrive: the octets of every packet about subrates and connection parameters
on its way between two connected controllers are received as that packet. -/
theorem C132_sub (n m : Sub.Link) (xs : List Sub.Act) (h1 : n.toPeripheral = []) (h2 : n.toCentral = [])
    (hx : ∀ c, .hostC c ∈ xs ∨ .hostP c ∈ xs → SubArgs c) (hr : Sub.run n xs = some m)
    (a b : Nat) (hA : Address a) (hB : Address b) :
    (∀ p ∈ m.toPeripheral, receive (send a b (.sub p)) = some (a, b, .sub p)) ∧
    ∀ p ∈ m.toCentral, receive (send b a (.sub p)) = some (b, a, .sub p) := by
  have key : ∀ (xs : List Sub.Act) (n : Sub.Link), ((∀ p ∈ n.toPeripheral, Fits (.sub p)) ∧ ∀ p ∈ n.toCentral, Fits (.sub p)) →
      (∀ c, .hostC c ∈ xs ∨ .hostP c ∈ xs → SubArgs c) → Sub.run n xs = some m →
      (∀ p ∈ m.toPeripheral, Fits (.sub p)) ∧ ∀ p ∈ m.toCentral, Fits (.sub p) := by
    intro xs
    induction xs with
    | nil => intro n hn _ hr; cases hr; exact hn
    | cons x xs ih =>
      intro n hn hx hr
      simp only [Sub.run] at hr
      split at hr
      case h_2 => cases hr
      rename_i n' st ec ep hs
      refine ih n' ?_ (fun c hc => hx c (hc.imp (List.mem_cons_of_mem _) (List.mem_cons_of_mem _))) hr
      have app : ∀ {q ps : List Sub.Pdu}, (∀ p ∈ q, Fits (.sub p)) → (∀ p ∈ ps, Fits (.sub p)) → ∀ p ∈ q ++ ps, Fits (.sub p) :=
        fun h h' p hp => (List.mem_append.mp hp).elim (h p) (h' p)
      cases x with
      | hostC c =>
        simp only [Sub.step] at hs
        split at hs
        · rename_i he; cases hs
          exact ⟨app hn.1 (C132_subcommand _ _ _ _ _ _ (hx c (.inl (List.mem_cons_self ..))) he), hn.2⟩
        · cases hs
      | hostP c =>
        simp only [Sub.step] at hs
        split at hs
        · rename_i he; cases hs
          exact ⟨hn.1, app hn.2 (C132_subcommand _ _ _ _ _ _ (hx c (.inr (List.mem_cons_self ..))) he)⟩
        · cases hs
      | arriveP =>
        simp only [Sub.step] at hs
        split at hs
        · cases hs; exact hn
        · rename_i y q hq
          have hy := hn.1; rw [hq] at hy
          split at hs
          · rename_i he; cases hs
            exact ⟨fun p hp => hy p (List.mem_cons_of_mem _ hp),
              app hn.2 (C132_subanswer _ _ _ _ _ _ (hy y (List.mem_cons_self ..)) he)⟩
          · cases hs
      | arriveC =>
        simp only [Sub.step] at hs
        split at hs
        · cases hs; exact hn
        · rename_i y q hq
          have hy := hn.2; rw [hq] at hy
          split at hs
          · rename_i he; cases hs
            exact ⟨app hn.1 (C132_subanswer _ _ _ _ _ _ (hy y (List.mem_cons_self ..)) he),
              fun p hp => hy p (List.mem_cons_of_mem _ hp)⟩
          · cases hs
  have hm := key xs n ⟨by simp [h1], by simp [h2]⟩ hx hr
  exact ⟨fun p hp => C132_receive a b _ hA hB (hm.1 p hp), fun p hp => C132_receive b a _ hB hA (hm.2 p hp)⟩

/-! ### A case -/

/-- A key is refused. -/
example : receive (send 0x112233445566 0xaabbccddeeff (.link (.encRsp 6 (List.replicate 16 0)))) =
    some (0x112233445566, 0xaabbccddeeff, .link (.encRsp 6 (List.replicate 16 0))) :=
  C132_receive _ _ _ (by unfold Address; decide) (by unfold Address; decide) ⟨by decide, rfl⟩

/-- A subrate is asked for. -/
example : send 1 2 (.sub (.subrateReq 1 4 2 0 0x0190)) = [0x53, 1, 0, 0, 0, 0, 0, 2, 0, 0, 0, 0, 0, 1, 0, 4, 0, 2, 0, 0, 0, 0x90, 1] := by
  rw [C132_octets]; rfl

/-- A controller and a peer that has asked for its version, and the octets of the answer. -/
def someDev : Link.Dev :=
  ⟨fun h => if h = 3 then some (Link.Conn.fresh .central) else none, 7, 7, 7, 0, 0, 0x1ff, 0x0c, 0x5ad2, 0x0f, 0, 0, 0, []⟩

example : Sound someDev := ⟨by decide, by decide, by decide, by decide, by decide, by decide, by simp [someDev]⟩

example : ∃ o, Link.receive someDev 3 .verReq = some o ∧ o.out.map (fun x => send 1 2 (.link x.2)) =
    [[0x1c, 1, 0, 0, 0, 0, 0, 2, 0, 0, 0, 0, 0, 0x0c, 0xd2, 0x0f, 0]] :=
  ⟨_, rfl, by simp only [List.map, C132_octets]; rfl⟩

/-- Two such controllers; one asks for the version of the other, which answers. -/
example : ∃ m l, Link.nrun ⟨someDev, someDev, 3, 3, [], []⟩ [.hostA (.readVersion 3), .arriveB] = some (m, l) ∧
    m.toA = [.verRsp 0x0c 0xd2 0x0f] := ⟨_, _, rfl, rfl⟩

/-- A central indicates a subrate: a run that leaves a packet on its way. -/
example : ∃ m, Sub.run (.start 24 0 500 {} {} true true) [.hostC (.subrateRequest 1 2 0 0 500)] = some m ∧
    m.toPeripheral = [.subrateInd .success 2 0 0 500] := ⟨_, rfl, rfl⟩

end Verif.WireAir
