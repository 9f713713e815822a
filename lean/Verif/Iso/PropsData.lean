import Verif.Iso.Data
import Verif.Iso.PropsHandles
/-!
# C25: isochronous SDUs end to end
-/

namespace Verif.Iso

open Verif.Le

/-! ## Specification -/

/-- A fragment as the controller expects it: the header with sequence number and SDU length is in every fragment. -/
structure Fragment where
  sequence : Nat
  sduLength : Nat
  chunk : List Nat

/-- The octets of a fragment. -/
def Fragment.payload (f : Fragment) : List Nat :=
  [f.sequence % 256, f.sequence / 256, f.sduLength % 256, f.sduLength / 256] ++ f.chunk

/-- The packets after the first one. -/
def restPackets (h : Nat) : List Fragment → List IsoPacket
  | [] => []
  | [f] => [⟨h, .last, false, f.payload⟩]
  | f :: fs => ⟨h, .continuation, false, f.payload⟩ :: restPackets h fs

/-- The packets in which a host sends an SDU in the fragments `f :: fs`. -/
def sduPackets (h : Nat) (f : Fragment) : List Fragment → List IsoPacket
  | [] => [⟨h, .complete, false, f.payload⟩]
  | fs => ⟨h, .first, false, f.payload⟩ :: restPackets h fs

/-- One SDU that a host sends. -/
structure Sdu where
  handle : Nat
  head : Fragment
  tail : List Fragment

def Sdu.packets (u : Sdu) : List IsoPacket := sduPackets u.handle u.head u.tail
def Sdu.fragments (u : Sdu) : List Fragment := u.head :: u.tail
/-- The octets of the SDU. -/
def Sdu.data (u : Sdu) : List Nat := u.fragments.flatMap (·.chunk)

/-- Flags of a well-formed sequence of fragments. -/
def WellFormed (flags : List Boundary) : Prop :=
  flags = [.complete] ∨ ∃ n, flags = .first :: List.replicate n .continuation ++ [.last]

/-- A CIS over which the host can send SDUs of up to `n` octets. -/
structure Usable (s : State) (c : Cis) (acl n : Nat) : Prop where
  mem : findCis s.cises c.handle = some c
  link : c.acl = some acl
  linked : (mapFind s.acls acl).isSome
  size : n ≤ c.maxSduTx

/-! ## Sending -/

theorem handleIsos_append {s : State} {limit : Nat} (a b : List IsoPacket) : ∀ {buffer : List Nat},
    handleIsos s limit buffer (a ++ b) =
      match handleIsos s limit buffer a with
      | .error f => .error f
      | .ok (buffer', out) =>
        match handleIsos s limit buffer' b with
        | .error f => .error f
        | .ok (buffer'', out') => .ok (buffer'', out ++ out') := by
  induction a with
  | nil =>
    intro buffer
    simp only [List.nil_append, handleIsos]
    cases handleIsos s limit buffer b <;> rfl
  | cons x a ih =>
    intro buffer
    simp only [List.cons_append, handleIsos]
    cases handleIso s limit buffer x with
    | error f => rfl
    | ok r =>
      simp only
      rw [ih]
      cases handleIsos s limit r.1 a with
      | error f => rfl
      | ok r2 =>
        simp only
        cases handleIsos s limit r2.1 b with
        | error f => rfl
        | ok r3 => simp

theorem payload_length (f : Fragment) : f.payload.length = f.chunk.length + 4 := by
  unfold Fragment.payload
  simp

theorem payload_drop (f : Fragment) : f.payload.drop 4 = f.chunk := rfl

theorem payload_sequence (f : Fragment) : sequenceOf false f.payload = f.sequence := by
  show f.sequence % 256 + 256 * (f.sequence / 256) = f.sequence
  omega

/-- One packet. -/
theorem handleIso_usable {s : State} {c : Cis} {acl n limit : Nat} (hu : Usable s c acl n) (buffer : List Nat)
    (b : Boundary) (f : Fragment) (hl : f.chunk.length + 4 ≤ limit) :
    handleIso s limit buffer ⟨c.handle, b, false, f.payload⟩ =
      assemble buffer ⟨c.handle, b, false, f.payload⟩ acl c.cigId c.cisId c.maxSduTx := by
  unfold handleIso
  rw [if_neg (by rw [payload_length]; omega), if_neg (by simp)]
  simp only [hu.mem, hu.link]
  rw [if_neg]
  have := hu.linked
  cases h : mapFind s.acls acl <;> simp_all

theorem assemble_eq {c : Cis} {acl : Nat} (buffer : List Nat) (b : Boundary) (f : Fragment) :
    assemble buffer ⟨c.handle, b, false, f.payload⟩ acl c.cigId c.cisId c.maxSduTx =
      let sdu := (if b = .first ∨ b = .complete then [] else buffer) ++ f.chunk
      if b = .last ∨ b = .complete then
        if c.maxSduTx < sdu.length then .ok (sdu, [])
        else .ok ([], [⟨acl, c.cigId, c.cisId, f.sequence, sdu⟩])
      else .ok (sdu, []) := by
  unfold assemble
  simp only
  have : ¬ f.payload.length < headerSize false := by rw [payload_length]; show ¬ _ < 4; omega
  rw [if_neg this, payload_sequence]
  rfl

/-- The packets after the first. -/
theorem rest_send {s : State} {c : Cis} {acl n limit : Nat} (hu : Usable s c acl n) : ∀ (fs : List Fragment) (buffer : List Nat),
    fs ≠ [] → (∀ f ∈ fs, f.chunk.length + 4 ≤ limit) →
    ∃ buffer', handleIsos s limit buffer (restPackets c.handle fs) = .ok (buffer',
      if c.maxSduTx < (buffer ++ fs.flatMap (·.chunk)).length then []
      else [⟨acl, c.cigId, c.cisId, (fs.getLast?.map (·.sequence)).getD 0, buffer ++ fs.flatMap (·.chunk)⟩]) := by
  intro fs
  induction fs with
  | nil => intro _ h; exact absurd rfl h
  | cons f fs ih =>
    intro buffer _ hl
    cases fs with
    | nil =>
      simp only [restPackets, handleIsos]
      rw [handleIso_usable hu _ _ _ (hl f (by simp)), assemble_eq]
      simp only [List.flatMap_cons, List.flatMap_nil, List.append_nil, List.getLast?_singleton, Option.map_some,
        Option.getD_some, reduceCtorEq, or_self, or_false, ↓reduceIte]
      by_cases hs : c.maxSduTx < (buffer ++ f.chunk).length
      · rw [if_pos hs, if_pos hs]; exact ⟨_, rfl⟩
      · rw [if_neg hs, if_neg hs]; exact ⟨_, rfl⟩
    | cons g fs =>
      simp only [restPackets, handleIsos]
      rw [handleIso_usable hu _ _ _ (hl f (by simp)), assemble_eq]
      simp only [reduceCtorEq, or_self, ↓reduceIte]
      obtain ⟨buffer', h⟩ := ih (buffer ++ f.chunk) (by simp) (fun x hx => hl x (List.mem_cons_of_mem _ hx))
      refine ⟨buffer', ?_⟩
      rw [h]
      simp only [List.flatMap_cons, List.append_assoc, List.nil_append, List.getLast?_cons_cons]

/-- One SDU, whatever was received before it. -/
theorem send_one {s : State} {c : Cis} {acl n limit : Nat} (hu : Usable s c acl n) (u : Sdu) (hh : u.handle = c.handle)
    (hl : ∀ f ∈ u.fragments, f.chunk.length + 4 ≤ limit) (buffer : List Nat) :
    ∃ buffer', handleIsos s limit buffer u.packets = .ok (buffer',
      if c.maxSduTx < u.data.length then []
      else [⟨acl, c.cigId, c.cisId, (u.fragments.getLast?.map (·.sequence)).getD 0, u.data⟩]) := by
  obtain ⟨h, f, fs⟩ := u
  simp only at hh
  subst hh
  cases fs with
  | nil =>
    simp only [Sdu.packets, sduPackets, handleIsos, Sdu.data, Sdu.fragments]
    rw [handleIso_usable hu _ _ _ (hl f (by simp [Sdu.fragments])), assemble_eq]
    simp only [List.flatMap_cons, List.flatMap_nil, List.append_nil, List.getLast?_singleton, Option.map_some,
        Option.getD_some, reduceCtorEq, or_true, ↓reduceIte, List.nil_append]
    by_cases hs : c.maxSduTx < f.chunk.length
    · rw [if_pos hs, if_pos hs]; exact ⟨_, rfl⟩
    · rw [if_neg hs, if_neg hs]; exact ⟨_, rfl⟩
  | cons g fs =>
    simp only [Sdu.packets, sduPackets, handleIsos, Sdu.data, Sdu.fragments]
    rw [handleIso_usable hu _ _ _ (hl f (by simp [Sdu.fragments])), assemble_eq]
    simp only [reduceCtorEq, or_false, ↓reduceIte, List.nil_append, or_self]
    obtain ⟨buffer', h⟩ := rest_send hu (g :: fs) f.chunk (by simp)
      (fun x hx => hl x (by simp only [Sdu.fragments]; exact List.mem_cons_of_mem _ hx))
    refine ⟨buffer', ?_⟩
    rw [h]
    simp only [List.flatMap_cons, List.getLast?_cons_cons]

/-- The full statement of the property allows the packets of different streams to be interleaved. Proved: when the
hosts' packets of one SDU are not interleaved with those of another, every SDU of any size and any fragmentation that
fits its CIS is sent as one PDU with its octets, on the link of its CIS, in the order of the SDUs, and SDUs that are
too large are dropped without an effect on the others. -/
theorem C25_send_partial {s : State} {limit : Nat} (us : List (Sdu × Cis × Nat))
    (hu : ∀ x ∈ us, Usable s x.2.1 x.2.2 0 ∧ x.1.handle = x.2.1.handle ∧
      ∀ f ∈ x.1.fragments, f.chunk.length + 4 ≤ limit) (buffer : List Nat) :
    ∃ buffer', handleIsos s limit buffer (us.flatMap (fun x => x.1.packets)) = .ok (buffer',
      us.flatMap (fun x =>
        if x.2.1.maxSduTx < x.1.data.length then []
        else [⟨x.2.2, x.2.1.cigId, x.2.1.cisId, (x.1.fragments.getLast?.map (·.sequence)).getD 0, x.1.data⟩])) := by
  induction us generalizing buffer with
  | nil => exact ⟨buffer, rfl⟩
  | cons x us ih =>
    obtain ⟨h1, h2, h3⟩ := hu x (by simp)
    obtain ⟨b1, e1⟩ := send_one h1 x.1 h2 h3 buffer
    obtain ⟨b2, e2⟩ := ih (fun y hy => hu y (List.mem_cons_of_mem _ hy)) b1
    refine ⟨b2, ?_⟩
    rw [List.flatMap_cons, handleIsos_append, e1]
    simp only [e2, List.flatMap_cons]

/-! ## Receiving -/

theorem fragmentLoop_concat (h q l : Nat) : ∀ (n : Nat) (b : Boundary) (data : List Nat), data.length < n →
    (fragmentLoop h q l n b data).flatMap (·.payload) = data := by
  intro n
  induction n with
  | zero => intro b data hd; omega
  | succ n ih =>
    intro b data hd
    simp only [fragmentLoop, List.flatMap_cons]
    split
    · rename_i hz
      rw [List.flatMap_nil, List.append_nil]
      have := List.take_append_drop maxPayload data
      rw [List.length_eq_zero_iff.1 hz, List.append_nil] at this
      exact this
    · rename_i hz
      rw [ih _ _ (by rw [List.length_drop] at hz ⊢; unfold maxPayload at *; omega), List.take_append_drop]

theorem fragmentLoop_each (h q l : Nat) : ∀ (n : Nat) (b : Boundary) (data : List Nat),
    ∀ r ∈ fragmentLoop h q l n b data, r.handle = h ∧ r.sequence = q ∧ r.sduLength = l ∧
      r.payload.length ≤ maxPayload := by
  intro n
  induction n with
  | zero => intro b data r hr; cases hr
  | succ n ih =>
    intro b data r hr
    simp only [fragmentLoop, List.mem_cons] at hr
    rcases hr with rfl | hr
    · exact ⟨rfl, rfl, rfl, by simp; omega⟩
    · split at hr
      · cases hr
      · exact ih _ _ r hr

/-- The flags of the fragments after the first. -/
theorem fragmentLoop_rest (h q l : Nat) : ∀ (n : Nat) (data : List Nat), data.length < n → 0 < data.length →
    ∃ k, (fragmentLoop h q l n (if data.length ≤ maxPayload then .last else .continuation) data).map (·.boundary) =
      List.replicate k .continuation ++ [.last] := by
  intro n
  induction n with
  | zero => intro data hd; omega
  | succ n ih =>
    intro data hd hp
    simp only [fragmentLoop, List.map_cons]
    by_cases hz : (data.drop maxPayload).length = 0
    · rw [if_pos hz]
      rw [List.length_drop] at hz
      rw [if_pos (by omega)]
      exact ⟨0, rfl⟩
    · rw [if_neg hz]
      obtain ⟨k, hk⟩ := ih (data.drop maxPayload) (by rw [List.length_drop] at hz ⊢; unfold maxPayload at *; omega) (by omega)
      rw [hk]
      rw [List.length_drop] at hz
      rw [if_neg (by omega)]
      exact ⟨k + 1, rfl⟩

/-- A PDU of any size for a known CIS is given to the host in fragments: the payloads concatenate to the data, the
flags are well formed, every fragment fits an HCI packet and has the sequence number and the size of the SDU. The
handle is that of a CIS with the identifiers of the PDU. -/
theorem C25_receive (s : State) (pdu : IsoPdu) (hc : ∃ c ∈ s.cises, c.cigId = pdu.cigId ∧ c.cisId = pdu.cisId) :
    (incomingIso s pdu).flatMap (·.payload) = pdu.data ∧ WellFormed ((incomingIso s pdu).map (·.boundary)) ∧
    (∃ c ∈ s.cises, c.cigId = pdu.cigId ∧ c.cisId = pdu.cisId ∧ ∀ r ∈ incomingIso s pdu,
      r.handle = c.handle ∧ r.sequence = pdu.sequence ∧ r.payload.length + 4 ≤ 4095 ∧
      (pdu.data.length < 65536 → r.sduLength = pdu.data.length)) := by
  obtain ⟨c, hm, h1, h2⟩ := hc
  have hsome : (s.cises.find? (fun c => c.cigId = pdu.cigId ∧ c.cisId = pdu.cisId)).isSome := by
    rw [List.find?_isSome]
    exact ⟨c, hm, by simp [h1, h2]⟩
  obtain ⟨x, hx⟩ := Option.isSome_iff_exists.1 hsome
  have hxm := List.mem_of_find?_eq_some hx
  have hxp := List.find?_some hx
  simp only [decide_eq_true_eq] at hxp
  unfold incomingIso
  rw [hx]
  simp only
  refine ⟨fragmentLoop_concat _ _ _ _ _ _ (by omega), ?_, x, hxm, hxp.1, hxp.2, fun r hr => ?_⟩
  · simp only [fragmentLoop, List.map_cons]
    by_cases hz : (pdu.data.drop maxPayload).length = 0
    · rw [if_pos hz]
      rw [List.length_drop] at hz
      rw [if_pos (by omega)]
      exact Or.inl rfl
    · rw [if_neg hz]
      rw [List.length_drop] at hz
      rw [if_neg (by omega)]
      obtain ⟨k, hk⟩ := fragmentLoop_rest x.handle pdu.sequence (pdu.data.length % 65536) pdu.data.length
        (pdu.data.drop maxPayload) (by rw [List.length_drop]; unfold maxPayload; unfold maxPayload at hz; omega)
        (by rw [List.length_drop]; omega)
      rw [hk]
      exact Or.inr ⟨k, rfl⟩
  · obtain ⟨e1, e2, e3, e4⟩ := fragmentLoop_each _ _ _ _ _ _ r hr
    refine ⟨e1, e2, ?_, fun hlt => ?_⟩
    · unfold maxPayload at e4; omega
    · rw [e3, Nat.mod_eq_of_lt hlt]

/-- From host to host: an SDU of any size and fragmentation that is not interleaved with others is given to the other
host with the same octets and well-formed flags. -/
theorem C25_end_to_end_partial {s sP : State} {limit : Nat} {c : Cis} {acl : Nat} (u : Sdu)
    (hu : Usable s c acl u.data.length) (hh : u.handle = c.handle)
    (hl : ∀ f ∈ u.fragments, f.chunk.length + 4 ≤ limit)
    (hP : ∃ c' ∈ sP.cises, c'.cigId = c.cigId ∧ c'.cisId = c.cisId) (buffer : List Nat) :
    ∃ buffer' pdu, handleIsos s limit buffer u.packets = .ok (buffer', [pdu]) ∧
      (incomingIso sP pdu).flatMap (·.payload) = u.data ∧ WellFormed ((incomingIso sP pdu).map (·.boundary)) := by
  obtain ⟨buffer', h⟩ := send_one hu u hh hl buffer
  rw [if_neg (Nat.not_lt.2 hu.size)] at h
  obtain ⟨h1, h2, -⟩ := C25_receive sP ⟨acl, c.cigId, c.cisId, (u.fragments.getLast?.map (·.sequence)).getD 0, u.data⟩ hP
  exact ⟨buffer', _, h, h1, h2⟩

/-! ## Non-vacuity and violations -/

/-- A central with two connected CISes. -/
def dataHistory : List (Env × Op) :=
  [(fullEnv, .addLink 0x10 .central),
    (fullEnv, .hci (.setCig 3 10000 10000 false 20 20 [⟨1, { maxSduC := 100, maxSduP := 50, phyC := 1, phyP := 3 }⟩,
      ⟨2, { maxSduC := 100, maxSduP := 0, phyC := 2, phyP := 2 }⟩])),
    (fullEnv, .hci (.createCis [(0xE00, 0x10), (0xE01, 0x10)])), (fullEnv, .llcp 0x10 .cisRsp),
    (fullEnv, .llcp 0x10 .cisRsp)]

def dataState : State := stateAfter dataHistory

example : ∃ c, Usable dataState c 0x10 100 ∧ c.handle = 0xE00 ∧ c.state = .connected := by
  refine ⟨(findCis dataState.cises 0xE00).getD ⟨0, 0, 0, .central, none, .configuration, none, false, false⟩, ⟨?_, ?_, ?_, ?_⟩, ?_, ?_⟩ <;>
    decide +kernel

/-- An SDU of three octets in two fragments. -/
example : (handleIsos dataState 1021 [] (Sdu.packets ⟨0xE00, ⟨7, 3, [1, 2]⟩, [⟨7, 3, [3]⟩]⟩)).toOption =
    some ([], [⟨0x10, 3, 1, 7, [1, 2, 3]⟩]) := by decide +kernel

/-- A 4093 octet PDU is given to the host in two fragments. -/
example : (fragmentLoop 0xE00 1 4093 4094 .first (List.replicate 4093 0)).map (fun r => (r.boundary, r.payload.length)) =
    [(.first, 4091), (.last, 2)] := by
  decide +kernel

/-- Interleaving the fragments of two streams mixes their octets: the SDU `[1, 2]` of the first CIS and the SDU
`[10, 20]` of the second are lost; what is sent is `[10, 2]` and `[20]`. -/
theorem C25_interleaved_violated : ∃ s, Reachable s ∧ s.cises.map (·.state) = [.connected, .connected] ∧
    let u1 : Sdu := ⟨0xE00, ⟨1, 2, [1]⟩, [⟨1, 2, [2]⟩]⟩
    let u2 : Sdu := ⟨0xE01, ⟨1, 2, [10]⟩, [⟨1, 2, [20]⟩]⟩
    (handleIsos s 1021 [] (u1.packets.take 1 ++ u2.packets.take 1 ++ u1.packets.drop 1 ++ u2.packets.drop 1)).toOption.map
        (fun r => r.2.map (fun p => (p.cisId, p.data))) = some [(1, [10, 2]), (2, [20])] :=
  ⟨dataState, stateAfter_reachable _, by decide +kernel, by decide +kernel⟩

/-- The specification has no header in continuation and last fragments. A host that follows it loses the first four
octets of each, and one with fewer than four octets aborts the controller. -/
theorem C25_header_violated : ∃ s, Reachable s ∧ s.cises.map (·.state) = [.connected, .connected] ∧
    (handleIsos s 1021 [] [⟨0xE00, .first, false, [1, 0, 8, 0, 1, 2]⟩, ⟨0xE00, .last, false, [3, 4, 5, 6, 7, 8]⟩]).toOption.map
        (fun r => r.2.map (fun p => (p.sequence, p.data))) = some [(0x0403, [1, 2, 7, 8])] ∧
    handleIsos s 1021 [] [⟨0xE00, .first, false, [1, 0, 8, 0, 1, 2]⟩, ⟨0xE00, .last, false, [3]⟩] = .error .panic :=
  ⟨dataState, stateAfter_reachable _, by decide +kernel, by decide +kernel, rfl⟩

/-- Two centrals may use the same identifiers. All the data is then given to the peripheral's host with the handle of
one of the two CISes, whichever central sent it: the handle does not depend on the link. -/
theorem C25_wrong_stream_violated : ∃ s, Reachable s ∧
    s.cises.map (fun c => (c.handle, c.acl, c.state)) = [(0xE00, some 0x20, .connected), (0xE01, some 0x21, .connected)] ∧
    ∀ seq data, ∀ acl ∈ [0x20, 0x21], ∀ r ∈ incomingIso s ⟨acl, 1, 1, seq, data⟩, r.handle = 0xE00 := by
  refine ⟨stateAfter [(fullEnv, .addLink 0x20 .peripheral), (fullEnv, .addLink 0x21 .peripheral),
    (fullEnv, .llcp 0x20 (.cisReq exampleReq)), (fullEnv, .hci (.acceptCis 0xE00)),
    (fullEnv, .llcp 0x20 (.cisInd 10000 10000)),
    (fullEnv, .llcp 0x21 (.cisReq exampleReq)), (fullEnv, .hci (.acceptCis 0xE01)),
    (fullEnv, .llcp 0x21 (.cisInd 10000 10000))], stateAfter_reachable _, by decide +kernel, ?_⟩
  intro seq data acl _ r hr
  exact (fragmentLoop_each 0xE00 seq _ _ _ _ r hr).1

/-- Data is still sent over a CIS that its host has disconnected. -/
theorem C25_disconnected_violated : ∃ s, Reachable s ∧ s.cises.map (·.state) = [.configuration, .connected] ∧
    (handleIsos s 1021 [] (Sdu.packets ⟨0xE00, ⟨7, 2, [1, 2]⟩, []⟩)).toOption = some ([], [⟨0x10, 3, 1, 7, [1, 2]⟩]) :=
  ⟨stateAfter (dataHistory ++ [(fullEnv, .hci (.disconnect 0xE00 0x13))]), stateAfter_reachable _,
    by decide +kernel, by decide +kernel⟩

end Verif.Iso
