import Verif.Bye.Lemmas
import Verif.Bye.LeLemmas
import Verif.Br.PropsFail
/-! # C100: when a device leaves, the others are told

The host of a device closes its connection to the simulator: the controller of that device sends what `closeBr` and `closeLe`
say and is then gone. -/
namespace Verif.Bye
open Verif.Br

theorem two_sent (y : Nat) (l : List (Nat × Acl)) (hn : (l.map (fun e => e.2.addr)).Nodup) :
    (l.filter (fun e => e.2.addr = y)).map (fun e => (e.2.addr, Pkt.disconnect 0x15)) =
      if y ∈ l.map (fun e => e.2.addr) then [(y, Pkt.disconnect 0x15)] else [] := by
  induction l with
  | nil => rfl
  | cons e l ih =>
    have hn' := (List.nodup_cons.mp hn)
    by_cases h : e.2.addr = y
    · have : y ∉ l.map (fun e => e.2.addr) := h ▸ hn'.1
      rw [List.filter_cons_of_pos (by simp [h]), List.map_cons, ih hn'.2, if_neg this, if_pos (by simp [h])]
      rw [h]
    · rw [List.filter_cons_of_neg (by simp [h]), ih hn'.2]
      simp only [List.map_cons, List.mem_cons, Ne.symm h, false_or]

/-- The device that leaves sends every other device the end of each synchronous connection with it, and then the end of the
connection with it, all with the reason 0x15 (remote device terminated due to power off). It sends nothing to others. -/
theorem C100_sends (addr : Nat) (i : Info) (n : Nat) (as : List (Nat × Act)) (hx : ∀ x ∈ as, Named x.2) (s : Ctl) (l : List Seen)
    (h : run (Ctl.fresh addr i n) as = some (s, l)) (y : Nat) :
    sentTo y (closeBr s) = List.replicate (syncs s y) (.scoDisc 0x15) ++ (if y ∈ peers s then [.disconnect 0x15] else []) := by
  have hi := run_inv (fresh_inv addr i n) as hx s l h
  have e1 : (s.sco.map (fun e => (e.2.addr, Pkt.scoDisc 0x15))).filter (fun o => o.1 = y) =
      (s.sco.filter (fun e => e.2.addr = y)).map (fun e => (e.2.addr, Pkt.scoDisc 0x15)) := by
    rw [List.filter_map]
    rfl
  have e2 : (s.acl.map (fun e => (e.2.addr, Pkt.disconnect 0x15))).filter (fun o => o.1 = y) =
      (s.acl.filter (fun e => e.2.addr = y)).map (fun e => (e.2.addr, Pkt.disconnect 0x15)) := by
    rw [List.filter_map]
    rfl
  simp only [sentTo, closeBr, List.filter_append, List.map_append, e1, e2]
  have e3 : ((s.sco.filter (fun e => e.2.addr = y)).map (fun e => (e.2.addr, Pkt.scoDisc 0x15))).map (·.2) = List.replicate (syncs s y) (.scoDisc 0x15) := by
    rw [List.map_map]
    exact List.map_const' ..
  rw [e3, two_sent y s.acl hi.nodup]
  unfold peers
  split <;> simp

/-- The packets, split: those for synchronous connections, then the last one. -/
theorem split_arr {arr : List (Nat × Nat × Pkt)} {k : Nat} {p q : Pkt} (h : arr.map (·.2.2) = List.replicate k p ++ [q]) :
    ∃ (as : List (Nat × Nat)) (now rssi : Nat), as.length = k ∧ arr = as.map (fun e => (e.1, e.2, p)) ++ [(now, rssi, q)] := by
  induction k generalizing arr with
  | zero =>
    match arr, h with
    | [(now, rssi, q')], h =>
      simp at h
      subst h
      exact ⟨[], now, rssi, rfl, rfl⟩
  | succ k ih =>
    match arr, h with
    | (now, rssi, p') :: arr, h =>
      simp only [List.map_cons, List.replicate_succ, List.cons_append, List.cons.injEq] at h
      obtain ⟨as, n', r', h1, h2⟩ := ih h.2
      exact ⟨(now, rssi) :: as, n', r', by simp [h1], by rw [h2, h.1]; rfl⟩

theorem one_of {t : Ctl} (hi : Inv t) {x h : Nat} {c : Acl} (hm : (h, c) ∈ t.acl) (hc : c.addr = x) : t.acl.filter (fun e => e.2.addr = x) = [(h, c)] := by
  have hn := hi.nodup
  unfold peers at hn
  revert hn hm
  generalize t.acl = l
  intro hm hn
  induction l with
  | nil => cases hm
  | cons e l ih =>
    have hn' := List.nodup_cons.mp hn
    rcases List.mem_cons.mp hm with hm | hm
    · subst hm
      rw [List.filter_cons_of_pos (by simp [hc]), List.cons.injEq, List.filter_eq_nil_iff]
      refine ⟨rfl, fun e he hx => ?_⟩
      have hx : e.2.addr = x := by simpa using hx
      exact hn'.1 (List.mem_map.mpr ⟨e, he, hx.trans hc.symm⟩)
    · have : e.2.addr ≠ x := fun hx => hn'.1 (List.mem_map.mpr ⟨_, hm, hc.trans hx.symm⟩)
      rw [List.filter_cons_of_neg (by simp [this]), ih hm hn'.2]

/-- What arrives decides what becomes of `t`. -/
theorem arrives {t : Ctl} (hi : Inv t) {x k r : Nat} (hp : x ∈ peers t) {arr : List (Nat × Nat × Pkt)}
    (ha : arr.map (·.2.2) = List.replicate k (.scoDisc r) ++ [.disconnect r]) :
    (syncs t x ≤ k → ∃ l, arrive t x arr = some (without t x, l) ∧ l.flatMap (·.out) = [] ∧
      l.flatMap (·.ev) = if t.mask.testBit 4 then (handlesWith t x).map (fun h => .disconnComplete h r) else []) ∧
    (k < syncs t x → arrive t x arr = none) := by
  obtain ⟨as, now, rssi, hk, rfl⟩ := split_arr ha
  obtain ⟨t', l, h1, h2⟩ := scoDiscs (x := x) (r := r) as t hi
  have had : t'.addr = t.addr := by rw [h2.rest]
  have hma : t'.mask = t.mask := by rw [h2.rest]
  have hlm : t'.lm = t.lm := by rw [h2.rest]
  obtain ⟨⟨h, c⟩, hm, hc⟩ := List.mem_map.mp (h2.peers ▸ hp)
  have hsy : syncs t' x = syncs t x - k := by
    unfold syncs
    rw [h2.drop, List.length_drop, hk]
  obtain ⟨g1, g2⟩ := lastOne (r := r) (now := now) (rssi := rssi) h2.inv hm hc
  have hgo : arrive t x (as.map (fun e => (e.1, e.2, Pkt.scoDisc r)) ++ [(now, rssi, .disconnect r)]) =
      (run t' [(now, .packet x t'.addr rssi (.disconnect r))]).map (fun y => (y.1, l ++ y.2)) := by
    simp only [arrive, List.map_append, List.map_map, List.map_cons, List.map_nil]
    rw [run_append]
    have : (List.map ((fun e : Nat × Nat × Pkt => (e.1, Act.packet x t.addr e.2.1 e.2.2)) ∘ fun e => (e.1, e.2, Pkt.scoDisc r)) as) =
      as.map (fun e => (e.1, .packet x t.addr e.2 (.scoDisc r))) := rfl
    rw [this, h1, had]
    rfl
  constructor
  · intro hle
    have hz : syncs t' x = 0 := by omega
    have hnone : t'.sco.filter (fun e => e.2.addr = x) = [] := List.length_eq_zero_iff.mp hz
    have hs' : t'.sco = t.sco.filter (fun e => e.2.addr ≠ x) := by
      rw [← h2.keep, eq_comm, List.filter_eq_self]
      intro e he
      have := List.filter_eq_nil_iff.mp hnone e he
      simpa using this
    have hst : ({ t' with acl := t'.acl.filter (fun e => e.2.addr ≠ x), lm := t'.lm.erase x } : Ctl) = without t x := by
      rw [h2.acl, hlm]
      unfold without
      rw [← hs']
      conv_lhs => rw [h2.rest]
    rw [hgo]
    simp only [run, g1 hz, Option.map_some]
    refine ⟨_, by rw [hst], ?_, ?_⟩
    · simp [h2.out]
    · have hh : (t.acl.filter (fun e => e.2.addr = x)).map (·.1) = [h] := by
        have hmem : (h, x) ∈ t'.acl.map (fun e => (e.1, e.2.addr)) := List.mem_map.mpr ⟨_, hm, Prod.ext rfl hc⟩
        rw [h2.handles] at hmem
        obtain ⟨⟨h', c'⟩, m1, m2⟩ := List.mem_map.mp hmem
        simp only [Prod.mk.injEq] at m2
        rw [one_of hi m1 m2.2]
        simp [m2.1]
      have htk : (t.sco.filter (fun e => e.2.addr = x)).take as.length = t.sco.filter (fun e => e.2.addr = x) := by
        apply List.take_of_length_le
        unfold syncs at hle
        omega
      simp only [List.flatMap_append, h2.ev, htk, hma, handlesWith, hh]
      split <;> simp
  · intro hlt
    rw [hgo]
    simp only [run, g2 (by omega), Option.map_none]

/-- A device that leaves is gone for a device connected with it that has no more synchronous connections with it than the other
way round: exactly the connections with the device that left are removed, and the host of the device that stays is told of each
of them, once, with the reason 0x15 (if it wants Disconnection Complete events). Nothing is sent, and nothing else changes.
Missing: a device that stays and that has more synchronous connections with the other than the other has with it, as while the
request of one is on its way; it aborts, see below. -/
theorem C100_told_partial (as bs : List (Nat × Act)) (hx : ∀ x ∈ as, Named x.2) (hy : ∀ x ∈ bs, Named x.2) (x y : Nat) (i j : Info) (m n : Nat)
    (s t : Ctl) (l l' : List Seen) (hs : run (Ctl.fresh x i m) as = some (s, l)) (ht : run (Ctl.fresh y j n) bs = some (t, l'))
    (hxy : x ∈ peers t) (hyx : y ∈ peers s) (hle : syncs t x ≤ syncs s y)
    (arr : List (Nat × Nat × Pkt)) (ha : arr.map (·.2.2) = sentTo y (closeBr s)) :
    ∃ l, arrive t x arr = some (without t x, l) ∧ l.flatMap (·.out) = [] ∧
      l.flatMap (·.ev) = if t.mask.testBit 4 then (handlesWith t x).map (fun h => .disconnComplete h 0x15) else [] := by
  have hi := run_inv (fresh_inv y j n) bs hy t l' ht
  rw [C100_sends x i m as hx s l hs y, if_pos hyx] at ha
  exact (arrives hi hxy ha).1 hle

/-- **The violation.** In every other case the device that stays aborts, on the last packet of the device that leaves. -/
theorem C100_told_violated (as bs : List (Nat × Act)) (hx : ∀ x ∈ as, Named x.2) (hy : ∀ x ∈ bs, Named x.2) (x y : Nat) (i j : Info) (m n : Nat)
    (s t : Ctl) (l l' : List Seen) (hs : run (Ctl.fresh x i m) as = some (s, l)) (ht : run (Ctl.fresh y j n) bs = some (t, l'))
    (hxy : x ∈ peers t) (hyx : y ∈ peers s) (hlt : syncs s y < syncs t x)
    (arr : List (Nat × Nat × Pkt)) (ha : arr.map (·.2.2) = sentTo y (closeBr s)) : arrive t x arr = none := by
  have hi := run_inv (fresh_inv y j n) bs hy t l' ht
  rw [C100_sends x i m as hx s l hs y, if_pos hyx] at ha
  exact (arrives hi hxy ha).2 hlt

/-- Device 0xB, connected with device 0xA, which asked for it. -/
def exampleB : List (Nat × Act) := [(0, .cmd (.writeScanEnable true true)), (1000000000, .packet 0xA 0xB 0 (.page 0 true)), (1000000001, .cmd (.accept 0xA true))]

/-- Both devices have a voice connection with each other: device 0xB leaves and device 0xA is told of both connections. -/
example : ((run exampleA (connectB ++ [(2000000000, .cmd (.setupSync 0 voice false)), (2000000001, .packet 0xB 0xA 0 (.scoRsp 0 voiceLink))])).bind
      (fun a => (run (Ctl.fresh 0xB exampleInfo 4) (exampleB ++ [(2000000000, .packet 0xA 0xB 0 (.scoReq voice 0)), (2000000001, .cmd (.acceptSync 0xA voice))])).bind
        (fun b => (arrive a.1 0xB ((sentTo 0xA (closeBr b.1)).map (fun p => (3000000000, 0, p)))).map (fun r => (peers r.1, r.1.sco.length, r.2.flatMap (·.ev)))))) =
    some ([], 0, [.disconnComplete 256 0x15, .disconnComplete 0 0x15]) := by
  decide +kernel

/-- The host of device 0xA asks for a voice connection and device 0xB leaves before the request arrives: device 0xA aborts. -/
example : ((run exampleA (connectB ++ [(2000000000, .cmd (.setupSync 0 voice false))])).bind
      (fun a => (run (Ctl.fresh 0xB exampleInfo 4) exampleB).map
        (fun b => (peers a.1, peers b.1, sentTo 0xA (closeBr b.1), (arrive a.1 0xB ((sentTo 0xA (closeBr b.1)).map (fun p => (3000000000, 0, p)))).isNone)))) =
    some ([0xB], [0xA], [.disconnect 0x15], true) := by
  decide +kernel

/-- A device that has no connection with the one that leaves does not notice, whatever of its packets arrive. -/
theorem C100_stranger (t : Ctl) (x : Nat) (hxy : x ∉ peers t) (h0 : syncs t x = 0) (s : Ctl)
    (arr : List (Nat × Nat × Pkt)) (ha : ∀ e ∈ arr, e.2.2 ∈ (closeBr s).map (·.2)) :
    ∃ l, arrive t x arr = some (t, l) ∧ l.flatMap (·.out) = [] ∧ l.flatMap (·.ev) = [] := by
  have hf := syncs_zero.mp h0
  have hn : aclOf t x = none := by
    cases h : aclOf t x with
    | none => rfl
    | some e =>
      obtain ⟨h1, h2⟩ := aclOf_some (h : aclOf t x = some (e.1, e.2))
      exact absurd (List.mem_map.mpr ⟨_, h1, h2⟩) hxy
  have hto : ∀ now, touch t now x = t := fun now => by simp only [touch, hn]
  induction arr with
  | nil => exact ⟨[], rfl, rfl, rfl⟩
  | cons e arr ih =>
    obtain ⟨l, h1, h2, h3⟩ := ih (fun e he => ha e (List.mem_cons_of_mem _ he))
    obtain ⟨now, rssi, p⟩ := e
    have hp := ha _ List.mem_cons_self
    simp only [closeBr, List.map_append, List.map_map, List.mem_append, List.mem_map, Function.comp] at hp
    have hs : step t now (.packet x t.addr rssi p) = .ok 0 t [] [] := by
      rcases hp with ⟨_, _, hp⟩ | ⟨_, _, hp⟩ <;> subst hp
      · simp [step, incoming, dispatch, onScoDisc, hto, hf]
      · simp [step, incoming, dispatch, onDisconnect, hto, hn]
    simp only [arrive] at h1 ⊢
    simp only [List.map_cons, run, hs, h1, Option.map_some]
    exact ⟨_, rfl, by simpa using h2, by simpa using h3⟩

/-- A device that is connected with 0xB does not notice that 0xC leaves. -/
example : (run exampleA connectB).map (fun r => (decide (0xC ∈ peers r.1), syncs r.1 0xC)) = some (false, 0) := by
  decide +kernel

/-- The LE part of a device that leaves. Every LE controller receives its packets, in any company of times and random addresses. It does not fail. For
each pair of addresses, it drops as many of its connections between them as the device that left had between the same addresses;
it drops no others; its host is told of each that is dropped, once, with the reason 0x15; and nothing else changes. -/
theorem C100_le {ah : Ll.Hash} {cfg : Le.Config} {t : Ll.State} (ht : Ll.Reachable ah cfg t) (s : Ll.State)
    (arr : List ((Le.Irk → Le.Address) × Nat × Ll.Packet)) (ha : arr.map (fun e => .send e.2.2) = closeLe s) :
    ∃ (t' : Ll.State) (obs : List Ll.Obs), Ll.run ah cfg (arr.map (fun e => .receive e.1 e.2.1 e.2.2)) t = .ok (t', obs) ∧
      t' = { t with conns := t'.conns, links := t'.links } ∧
      (∀ peer own, between t' peer own = (between t peer own).drop (between s own peer).length) ∧
      (obs.flatMap (·.out) ++ t'.conns.map (fun e => Ll.Out.disconnected e.1 0x15)).Perm (t.conns.map (fun e => Ll.Out.disconnected e.1 0x15)) := by
  have hsp : ∃ as : List ((Le.Irk → Le.Address) × Nat × Le.Address × Le.Address),
      arr = as.map (fun e => (e.1, e.2.1, Ll.Packet.link e.2.2.1 e.2.2.2 (.disconnect 0x15))) ∧
      as.map (fun e => (e.2.2.1, e.2.2.2)) = s.conns.map (fun e => (e.2.own.address, e.2.address.address)) := by
    simp only [closeLe, Ll.disconnectAll] at ha
    revert ha
    generalize s.conns = cs
    induction arr generalizing cs with
    | nil =>
      intro ha
      cases cs with
      | nil => exact ⟨[], rfl, rfl⟩
      | cons c cs => cases ha
    | cons e arr ih =>
      intro ha
      cases cs with
      | nil => cases ha
      | cons c cs =>
        simp only [List.map_cons, List.cons.injEq, Ll.Out.send.injEq] at ha
        obtain ⟨as, h1, h2⟩ := ih cs ha.2
        refine ⟨(e.1, e.2.1, c.2.own.address, c.2.address.address) :: as, ?_, ?_⟩
        · rw [h1]
          simp only [List.map_cons, List.cons.injEq, and_true]
          rw [← ha.1]
        · simp only [List.map_cons, h2]
  obtain ⟨as, h1, h2⟩ := hsp
  obtain ⟨t', obs, g1, g2, g3, g4, g5⟩ := leDiscs (r := 0x15) as t ht
  refine ⟨t', obs, ?_, g2, ?_, g5⟩
  · rw [← g1, h1, List.map_map]
    rfl
  · intro peer own
    rw [g4]
    congr 1
    have e1 : as.countP (fun e => e.2.2.1 = peer && e.2.2.2 = own) = (as.map (fun e => (e.2.2.1, e.2.2.2))).countP (fun p => p.1 = peer && p.2 = own) := by
      rw [List.countP_map]
      rfl
    rw [e1, h2, List.countP_map, List.countP_eq_length_filter]
    unfold between
    congr 1
    apply List.filter_congr
    intro e _
    simp [Bool.and_comm]

/-- Device A leaves after a connection with the default controller was made. -/
example : (match Ll.run (fun _ _ => 0) Le.Config.default (Ll.attempt ++
      [.receive Ll.someRnd 0 (.connectComplete Ll.centralAddress Ll.advertiserA Ll.someParams),
       .receive Ll.someRnd 0 (.link 0xA Le.Config.default.publicAddress (.disconnect 0x15))]) (Ll.initial none) with
      | .ok x => some (x.1.conns, x.2.map (fun o => o.out.contains (.disconnected 0x200 0x15)))
      | _ => none) = some ([], [false, false, false, true]) := by
  decide +kernel

end Verif.Bye
