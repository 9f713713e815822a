import Verif.Ll.ReadLemmas
import Verif.Ll.PropsAsk
import Verif.Ll.PropsRpa
/-!
# Reading resolvable private addresses (C111)

The host foretells from its notes (`Verif.Ll.SpecAsk`) what LE Read Peer Resolvable
Address and LE Read Local Resolvable Address give.
-/

namespace Verif.Ll
open Verif.Le

/-- **C111 (heard).** If anything came of a packet, and there is a peer behind the address
of its sender, then that address is read as the one of the peer. -/
theorem C111_heard {ah : Hash} {cfg : Config} {a : Option Address} {ops : List Op} {s : State} {n : Ask}
    {rnd : Irk → Address} {now : Nat} {p : Packet} {x : State × Obs} {b : AddressWithType} {e : Peer}
    (hr : runAsk ah cfg ops (initial a) (.initial a) = .ok (s, n)) (h : step ah cfg s (.receive rnd now p) = .ok x)
    (hb : sender p = some b) (he : n.behind ah b e) (ho : x.2.out ≠ []) :
    readPeerRpa x.1.le e.type e.address = some b.address := by
  have hT := (tied_run (tied_initial a) hr).1
  simp only [step] at h
  obtain ⟨y, hy, h⟩ := Res.bind_eq_ok h
  cases h
  have hR := receive_reads hb hy
  obtain ⟨h1, h2, v, h3, h4, h5⟩ := peer_found hT he
  rcases hR.3 with hp | ⟨-, hp⟩
  · rw [readPeer_eq, hp, hear, if_pos ⟨h1, h2⟩, heardIn, read_modify _ _ _ _ (by rw [peerView_keys]; exact hT.4), h3]
    simp [h4, h5]
  · exact absurd hp ho

/-- **C111 (peer addresses and packets).** A packet changes the address of a peer only to
the one of its sender, and only if that peer is behind it. -/
theorem C111_peer_packet {ah : Hash} {cfg : Config} {a : Option Address} {ops : List Op} {s : State} {n : Ask}
    {rnd : Irk → Address} {now : Nat} {p : Packet} {x : State × Obs}
    (hr : runAsk ah cfg ops (initial a) (.initial a) = .ok (s, n)) (h : step ah cfg s (.receive rnd now p) = .ok x)
    (t : PeerAddressType) (i : Address) :
    readPeerRpa x.1.le t i = readPeerRpa s.le t i ∨
    ∃ b e, sender p = some b ∧ n.behind ah b e ∧ e.type = t ∧ e.address = i ∧ readPeerRpa x.1.le t i = some b.address := by
  have hT := (tied_run (tied_initial a) hr).1
  simp only [step] at h
  obtain ⟨y, hy, h⟩ := Res.bind_eq_ok h
  cases h
  cases hb : sender p with
  | none =>
    cases p with
    | link c d body =>
      left
      show readPeerRpa y.1.le t i = _
      rw [incomingLink_le (by simpa only [receive] using hy)]
    | _ => cases hb
  | some b =>
    have hR := receive_reads hb hy
    rcases hR.3 with hp | ⟨hp, -⟩
    · show readPeerRpa y.1.le t i = _ ∨ _
      by_cases hc : isRpa b = true ∧ s.le.resolvingListEnabled = true
      · rw [readPeer_eq, readPeer_eq, hp, hear, if_pos hc, heardIn, read_modify _ _ _ _ (by rw [peerView_keys]; exact hT.4)]
        cases hf : (peerView s.le.resolvingList).find? (fun e => matchesIrk ah e.2.2.1 b) with
        | none => exact .inl rfl
        | some v =>
          by_cases hk : v.1 = t ∧ v.2.1 = i
          · right
            obtain ⟨e, he, h1, h2⟩ := find_peer hT hc.1 hc.2 hf
            refine ⟨b, e, rfl, he, h1.trans hk.1, h2.trans hk.2, ?_⟩
            simp [hk]
          · exact .inl (by simp [hk])
      · rw [readPeer_eq, readPeer_eq, hp, hear, if_neg hc]; exact .inl rfl
    · left
      show readPeerRpa y.1.le t i = _
      rw [readPeer_eq, readPeer_eq, hp]

theorem step_reads {ah : Hash} {cfg : Config} {s : State} {o : Op} {x : State × Obs} (ho : ∀ rnd now p, o ≠ .receive rnd now p)
    (hc : ∀ c, o ≠ .cmd c) (h : step ah cfg s o = .ok x) :
    (o = .reset ∧ x.1.le.resolvingList = []) ∨ (o ≠ .reset ∧ x.1.le.resolvingList = s.le.resolvingList) := by
  cases o with
  | cmd c => exact absurd rfl (hc c)
  | receive rnd now p => exact absurd rfl (ho rnd now p)
  | tick now =>
    right
    simp only [step] at h
    obtain ⟨y, hy, h⟩ := Res.bind_eq_ok h
    cases h
    simp only [tick] at hy
    split at hy
    · cases hy
    · rename_i le out ha
      cases hy
      have he : runEnv s.le (.tick now) = .ret (scanning now le).1 out := by simp only [runEnv, ha]
      obtain ⟨m, -, hm, -⟩ := runEnv_tick he
      refine ⟨nofun, ?_⟩
      show (scanning now le).1.resolvingList = _
      rw [hm]
  | sendAcl a b c d =>
    right
    simp only [step, handleAcl] at h
    obtain ⟨y, hy, h⟩ := Res.bind_eq_ok h
    cases h
    split at hy
    · cases hy
    split at hy <;> (cases hy; exact ⟨nofun, rfl⟩)
  | disconnect a b c =>
    right
    simp only [step, disconnect] at h
    obtain ⟨y, hy, h⟩ := Res.bind_eq_ok h
    cases h
    split at hy
    · cases hy; exact ⟨nofun, rfl⟩
    split at hy
    · cases hy
    · rename_i hr
      obtain ⟨-, rfl⟩ := removeConnection_cases hr
      cases hy
      exact ⟨nofun, rfl⟩
  | reset => cases h; exact .inl ⟨rfl, rfl⟩

/-- **C111 (peer addresses otherwise).** Nothing but packets changes the address of a
peer: it is there until the peer is taken from the list. -/
theorem C111_peer_otherwise {ah : Hash} {cfg : Config} {a : Option Address} {ops : List Op} {s : State} {n : Ask}
    {o : Op} {x : State × Obs} (hr : runAsk ah cfg ops (initial a) (.initial a) = .ok (s, n))
    (ho : ∀ rnd now p, o ≠ .receive rnd now p) (h : step ah cfg s o = .ok x) (t : PeerAddressType) (i : Address) :
    readPeerRpa x.1.le t i = if forgets o x.2 t i then none else readPeerRpa s.le t i := by
  have hT := (tied_run (tied_initial a) hr).1
  by_cases hcmd : ∃ c, o = .cmd c
  · obtain ⟨c, rfl⟩ := hcmd
    simp only [step] at h
    obtain ⟨y, hy, h⟩ := Res.bind_eq_ok h
    cases h
    obtain ⟨le, hc, hx⟩ := command_cases hy
    have hle : y.1.le = le := by rw [hx]; split <;> rfl
    show readPeerRpa y.1.le t i = if forgets (.cmd c) ⟨some y.2, []⟩ t i then _ else _
    rw [hle, readPeer_eq, readPeer_eq]
    cases runCmd_reads hT.4 hc with
    | redrawn h1 h2 => rw [h2]; simp [h1.2]
    | add t' i' pk lk hc hL => subst hc; rw [hL, peerView, List.map_append]; simp [readIn, forgets, peerView]
    | remove t' i' hc he hL =>
      subst hc
      rw [hL, peerView, read_erase _ (fun _ => rfl) _ _ _ _ hT.4]
      simp [forgets, he, peerView]
    | clear hc he hL => subst hc; rw [hL]; simp [peerView, readIn, forgets, he]
  · rcases step_reads ho (fun c hc => hcmd ⟨c, hc⟩) h with ⟨rfl, h1⟩ | ⟨h0, h1⟩
    · rw [readPeer_eq, h1]; rfl
    · have hf : forgets o x.2 t i = false := by
        cases o with
        | cmd c => exact absurd ⟨c, rfl⟩ hcmd
        | reset => exact absurd rfl h0
        | _ => rfl
      rw [readPeer_eq, readPeer_eq, h1, hf]; rfl

theorem kindOf_eq (a : AddressWithType) : kindOf a = a.toPeerType := by
  obtain ⟨a, t⟩ := a
  cases t <;> rfl

theorem inj_of_nodup_map {α β : Type} {f : α → β} {l : List α} (hn : (l.map f).Nodup) {a b : α} (ha : a ∈ l)
    (hb : b ∈ l) (h : f a = f b) : a = b := by
  induction l with
  | nil => cases ha
  | cons x l ih =>
    simp only [List.map_cons, List.nodup_cons, List.mem_map, not_exists, not_and] at hn
    rcases List.mem_cons.1 ha with rfl | ha' <;> rcases List.mem_cons.1 hb with rfl | hb'
    · rfl
    · exact absurd h.symm (hn.1 b hb')
    · exact absurd h (hn.1 a ha')
    · exact ih hn.2 ha' hb'

/-- **C111 (local addresses and packets).** When a scan request or a connect request is
sent to a peer, an address made of the local key for that peer is read as the local
address. The addresses for others do not change, and without a request none does. -/
theorem C111_local_packet {ah : Hash} {cfg : Config} {a : Option Address} {ops : List Op} {s : State} {n : Ask}
    {rnd : Irk → Address} {now : Nat} {p : Packet} {x : State × Obs} {b r : AddressWithType}
    (hr : runAsk ah cfg ops (initial a) (.initial a) = .ok (s, n)) (h : step ah cfg s (.receive rnd now p) = .ok x)
    (hb : sender p = some b) (hi : n.identity ah b r) :
    (asked x.2.out = true → ∀ e ∈ n.peers, e.type = kindOf r → e.address = r.address →
      readLocalRpa x.1.le e.type e.address = some (rnd e.localKey)) ∧
    (∀ t i, asked x.2.out = false ∨ ¬ (t = kindOf r ∧ i = r.address) → readLocalRpa x.1.le t i = readLocalRpa s.le t i) := by
  have hT := (tied_run (tied_initial a) hr).1
  simp only [step] at h
  obtain ⟨y, hy, h⟩ := Res.bind_eq_ok h
  cases h
  have hR := receive_reads hb hy
  have hr' : resolved ah s.le b = r := (identity_iff ah s.le b r).2 ((identifies_iff hT _ _).2 hi)
  have hl := hR.4
  rw [hr'] at hl
  show (asked y.2 = true → ∀ e ∈ n.peers, _ → _ → readLocalRpa y.1.le _ _ = _) ∧
    ∀ t i, asked y.2 = false ∨ _ → readLocalRpa y.1.le t i = _
  have hn : ((localView s.le.resolvingList).map keyOf).Nodup := by rw [localView_keys]; exact hT.4
  refine ⟨?_, ?_⟩
  · intro ha e he ht hadr
    rw [if_pos ha] at hl
    rw [readLocal_eq, hl, drawnIn, read_modify _ _ _ _ hn]
    rw [← hT.3] at he
    obtain ⟨e', he', rfl⟩ := List.mem_map.1 he
    have hmem : (e'.peerType, e'.peerAddress, e'.localIrk, e'.localRpa) ∈ localView s.le.resolvingList :=
      List.mem_map.2 ⟨e', he', rfl⟩
    have hk : r.address = e'.peerAddress ∧ r.toPeerType = e'.peerType := ⟨hadr.symm, by rw [← kindOf_eq]; exact ht.symm⟩
    cases hf : (localView s.le.resolvingList).find? (fun e => decide (r.address = e.2.1 ∧ r.toPeerType = e.1)) with
    | none =>
      rw [List.find?_eq_none] at hf
      have := hf _ hmem
      simp [hk] at this
    | some v =>
      have hv := List.mem_of_find?_eq_some hf
      have hv2 := List.find?_some hf
      simp only [decide_eq_true_eq] at hv2
      have hvk : v.1 = e'.peerType ∧ v.2.1 = e'.peerAddress := ⟨hv2.2.symm.trans hk.2, hv2.1.symm.trans hk.1⟩
      have hinj : v = (e'.peerType, e'.peerAddress, e'.localIrk, e'.localRpa) := by
        refine inj_of_nodup_map hn hv hmem ?_
        simp [keyOf, hvk]
      subst hinj
      simp [asPeer]
  · intro t i hti
    rw [readLocal_eq, readLocal_eq, hl]
    by_cases ha : asked y.2 = true
    · rw [if_pos ha, drawnIn, read_modify _ _ _ _ hn]
      have hti := hti.resolve_left (by simp [ha])
      split
      · rename_i v hf
        have hv2 := List.find?_some hf
        simp only [decide_eq_true_eq] at hv2
        rw [if_neg]
        rintro ⟨h1, h2⟩
        exact hti ⟨by rw [kindOf_eq, ← h1, hv2.2], by rw [← h2, hv2.1]⟩
      · rfl
    · rw [if_neg ha]; rfl

/-- **C111 (local addresses otherwise).** Apart from packets, only commands that start
advertising or create a connection change the local address for a peer, to one made of
the local key for that peer. It is there until the peer is taken from the list. -/
theorem C111_local_otherwise {ah : Hash} {cfg : Config} {a : Option Address} {ops : List Op} {s : State} {n : Ask}
    {o : Op} {x : State × Obs} (hr : runAsk ah cfg ops (initial a) (.initial a) = .ok (s, n))
    (ho : ∀ rnd now p, o ≠ .receive rnd now p) (h : step ah cfg s o = .ok x) (t : PeerAddressType) (i : Address) :
    (forgets o x.2 t i = true → readLocalRpa x.1.le t i = none) ∧
    (forgets o x.2 t i = false → readLocalRpa x.1.le t i = readLocalRpa s.le t i ∨
      ∃ e ∈ n.peers, e.type = t ∧ e.address = i ∧ ∃ b, draws o e.localKey b ∧ readLocalRpa x.1.le t i = some b) := by
  have hT := (tied_run (tied_initial a) hr).1
  by_cases hcmd : ∃ c, o = .cmd c
  · obtain ⟨c, rfl⟩ := hcmd
    simp only [step] at h
    obtain ⟨y, hy, h⟩ := Res.bind_eq_ok h
    cases h
    obtain ⟨le, hc, hx⟩ := command_cases hy
    have hle : y.1.le = le := by rw [hx]; split <;> rfl
    show (forgets (.cmd c) ⟨some y.2, []⟩ t i = true → readLocalRpa y.1.le t i = _) ∧
      (forgets (.cmd c) ⟨some y.2, []⟩ t i = false → readLocalRpa y.1.le t i = _ ∨
        ∃ e ∈ n.peers, e.type = t ∧ e.address = i ∧ ∃ b, draws (.cmd c) e.localKey b ∧ readLocalRpa y.1.le t i = some b)
    rw [hle, readLocal_eq, readLocal_eq]
    cases runCmd_reads hT.4 hc with
    | redrawn h1 h2 =>
      refine ⟨fun hf => absurd (hf.symm.trans (h2 t i)) nofun, fun _ => ?_⟩
      rcases h1.3 t i with h3 | ⟨e, he, g1, g2, b, g3, g4⟩
      · exact .inl h3
      · exact .inr ⟨asPeer e, by rw [← hT.3]; exact List.mem_map_of_mem he, g1, g2, b, g3, g4⟩
    | add t' i' pk lk hc hL =>
      subst hc
      refine ⟨nofun, fun _ => .inl ?_⟩
      rw [hL, localView]; simp [readIn, localView]
    | remove t' i' hc he hL =>
      subst hc
      rw [hL, localView, read_erase _ (fun _ => rfl) _ _ _ _ hT.4]
      by_cases hk : t' = t ∧ i' = i
      · simp [forgets, he, hk]
      · rw [if_neg hk]
        refine ⟨fun hf => ?_, fun _ => .inl rfl⟩
        simp only [forgets, he] at hf
        simp at hf
        exact absurd hf hk
    | clear hc he hL =>
      subst hc
      refine ⟨fun _ => by rw [hL]; rfl, fun hf => ?_⟩
      simp [forgets, he] at hf
  · rcases step_reads ho (fun c hc => hcmd ⟨c, hc⟩) h with ⟨rfl, h1⟩ | ⟨h0, h1⟩
    · refine ⟨fun _ => by rw [readLocal_eq, h1]; rfl, nofun⟩
    · have hf : forgets o x.2 t i = false := by
        cases o with
        | cmd c => exact absurd ⟨c, rfl⟩ hcmd
        | reset => exact absurd rfl h0
        | _ => rfl
      refine ⟨fun hc => absurd (hc.symm.trans hf) nofun, fun _ => .inl ?_⟩
      rw [readLocal_eq, readLocal_eq, h1]

/-! ### Counterexamples and non-vacuity -/

/-- A host that knows one peer with keys 7 and 5 and scans actively, with its public
address or with resolvable private addresses. -/
def readOps (own : OwnAddressType) : List Op :=
  [.cmd (.addResolving .pub 0xA 7 5), .cmd (.addResolving .random 0xB 9 6), .cmd (.setAddressResolutionEnable true),
   .cmd (.setScanParameters .active 0x10 0x10 own .acceptAll), .cmd (.setScanEnable true false)]

/-- A scannable PDU of that peer, with an address made of its key. -/
def privatePdu : Op :=
  .receive (fun k => 0x500000000000#48 + k.setWidth 48) 5 (.legacyAdv ⟨⟨0x7f12347f1233, .randomDevice⟩, ⟨0, .publicDevice⟩, .advScanInd, []⟩)

/-- What is read of both peers: peer addresses, local addresses. -/
def readAll (ops : List Op) : List (Option Nat) :=
  match run exampleHash Config.default ops (initial none) with
  | .ok (s, _) => [readPeerRpa s.le .pub 0xA, readPeerRpa s.le .random 0xB, readLocalRpa s.le .pub 0xA,
      readLocalRpa s.le .random 0xB].map (Option.map BitVec.toNat)
  | _ => []

/-- The requests in a run: the addresses they are sent from. -/
def requesters (ops : List Op) : List Nat :=
  match run exampleHash Config.default ops (initial none) with
  | .ok (_, obs) => obs.flatMap fun b => b.out.filterMap fun o => match o with
    | .send (.scan a _) => some a.address.toNat
    | .send (.connect a _ _) => some a.address.toNat
    | _ => none
  | _ => []

/-- **Counterexample.** The scanner uses its public address, and sends a scan request from
it. The host reads a local private address, one that was never in use. -/
theorem C111_unused_violated :
    requesters (readOps .pub ++ [privatePdu]) = [Config.default.publicAddress.toNat] ∧
    readAll (readOps .pub ++ [privatePdu]) = [some 0x7f12347f1233, none, some 0x500000000005, none] := by
  decide +kernel

/-- With resolvable private addresses the request comes from the address that is read. -/
example : requesters (readOps .resolvableOrPublic ++ [privatePdu]) = [0x500000000005] ∧
    readAll (readOps .resolvableOrPublic) = [none, none, none, none] ∧
    readAll (readOps .resolvableOrPublic ++ [privatePdu]) = [some 0x7f12347f1233, none, some 0x500000000005, none] := by
  decide +kernel

/-- The addresses are there until the peer is taken from the list; while the scan goes on
that is refused. -/
example :
    readAll (readOps .pub ++ [privatePdu, .cmd (.removeResolving .pub 0xA)]) = [some 0x7f12347f1233, none, some 0x500000000005, none] ∧
    readAll (readOps .pub ++ [privatePdu, .cmd (.setScanEnable false false), .cmd (.setAddressResolutionEnable false),
      .cmd (.removeResolving .random 0xB)]) = [some 0x7f12347f1233, none, some 0x500000000005, none] ∧
    readAll (readOps .pub ++ [privatePdu, .cmd (.setScanEnable false false), .cmd (.setAddressResolutionEnable false),
      .cmd (.removeResolving .pub 0xA), .cmd (.addResolving .pub 0xA 7 5)]) = [none, none, none, none] := by
  decide +kernel

/-- There is a peer behind the address. -/
example : Ask.behind { (Ask.initial none) with resolve := true, peers := [⟨.random, 0xB, 9, 6⟩, ⟨.pub, 0xA, 7, 5⟩] } exampleHash
    ⟨0x7f12347f1233, .randomDevice⟩ ⟨.pub, 0xA, 7, 5⟩ :=
  ⟨rfl, rfl, [⟨.random, 0xB, 9, 6⟩], [], rfl, by simp only [RpaOf]; decide +kernel, by
    intro x hx
    obtain rfl := List.mem_singleton.1 hx
    simp only [RpaOf]
    decide +kernel⟩

end Verif.Ll
