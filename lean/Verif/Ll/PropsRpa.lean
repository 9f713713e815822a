import Verif.Ll.RpaInv
/-!
# C32: generated resolvable private addresses are well formed and resolve to their owner

`ah` is the hash function of the controllers; nothing is assumed about it.
-/

namespace Verif.Ll
open Verif.Le

/-- A generated address has the type bits of a resolvable private address, a random
part that is neither all zeros nor all ones, and the hash of the key. -/
theorem C32_well_formed (ah : Hash) (d : Draws) (irk : Irk) :
    RpaOf ah irk (makeRpa ah d irk) ∧
      randomPart (makeRpa ah d irk) ≠ 0 ∧ randomPart (makeRpa ah d irk) ≠ 2 ^ 22 - 1 := by
  refine ⟨makeRpa_rpaOf ah d irk, ?_⟩
  have h1 := makeRpa_toNat ah d irk
  have h2 := prand_toNat d
  have h3 := (ah irk (prand d)).isLt
  have h4 := (lowByte d).isLt
  have h5 := lowByte_cases d
  have h6 : (makeRpa ah d irk).toNat / 2 ^ 24 = (prand d).toNat := by rw [h1]; omega
  simp only [randomPart, h6, h2]
  omega

/-- The random part is otherwise unrestricted: each of the allowed values occurs. -/
theorem C32_all_random_parts (ah : Hash) (irk : Irk) (n : Nat) (h0 : n ≠ 0)
    (h1 : n < 2 ^ 22 - 1) : ∃ d, randomPart (makeRpa ah d irk) = n := by
  refine ⟨⟨n % 256, n / 256 % 256, n / 65536, 0⟩, ?_⟩
  have h2 := makeRpa_toNat ah ⟨n % 256, n / 256 % 256, n / 65536, 0⟩ irk
  have h3 := prand_toNat ⟨n % 256, n / 256 % 256, n / 65536, 0⟩
  have h4 := (ah irk (prand ⟨n % 256, n / 256 % 256, n / 65536, 0⟩)).isLt
  have hl : (lowByte ⟨n % 256, n / 256 % 256, n / 65536, 0⟩).toNat = n % 256 := by
    have hb : ∀ a b : Nat, a < 256 → b < 256 → BitVec.ofNat 8 a = BitVec.ofNat 8 b → a = b := by
      intro a b ha hb h
      have := congrArg BitVec.toNat h
      simp only [BitVec.toNat_ofNat] at this
      omega
    unfold lowByte maskedTop
    split
    · rename_i hc
      exfalso
      rcases hc with ⟨ha, hb', hc⟩ | ⟨ha, hb', hc⟩
      · have e1 := hb _ 0 (Nat.mod_lt _ (by decide)) (by decide) ha
        have e2 := hb _ 0 (Nat.mod_lt _ (by decide)) (by decide) hb'
        have e3 := congrArg BitVec.toNat hc
        rw [masked_toNat, BitVec.toNat_ofNat] at e3
        simp at e3
        omega
      · have e1 := hb _ 255 (Nat.mod_lt _ (by decide)) (by decide) ha
        have e2 := hb _ 255 (Nat.mod_lt _ (by decide)) (by decide) hb'
        have e3 := congrArg BitVec.toNat hc
        rw [masked_toNat, BitVec.toNat_ofNat] at e3
        simp at e3
        omega
    · rw [BitVec.toNat_ofNat]; simp only; omega
  have h6 : (makeRpa ah ⟨n % 256, n / 256 % 256, n / 65536, 0⟩ irk).toNat / 2 ^ 24 =
      (prand ⟨n % 256, n / 256 % 256, n / 65536, 0⟩).toNat := by rw [h2]; omega
  simp only [randomPart, h6, h3, hl]
  omega

/-- The test of the controller for a key is exactly the specification. -/
theorem C32_recognised_iff (ah : Hash) (irk : Irk) (a : AddressWithType) :
    matchesIrk ah irk a = true ↔ a.type = .randomDevice ∧ RpaOf ah irk a.address :=
  matchesIrk_iff ah irk a

/-- What the controller takes an address for: addresses that are not resolvable are
themselves; a resolvable one is the peer of the first entry whose key matches, if
resolution is on. -/
theorem C32_resolution (ah : Hash) (s : Le.State) (a : AddressWithType) :
    (¬ (a.type = .randomDevice ∧ a.address.toNat / 2 ^ 46 = 1) → resolvePrivate ah s a = some a) ∧
    (a.type = .randomDevice ∧ a.address.toNat / 2 ^ 46 = 1 → ∀ i,
      (resolvePrivate ah s a = some i ↔ s.resolvingListEnabled = true ∧
        ∃ before e after, s.resolvingList = before ++ e :: after ∧
          i = peerDeviceAddress e.peerAddress e.peerType ∧ RpaOf ah e.peerIrk a.address ∧
          ∀ x ∈ before, ¬ RpaOf ah x.peerIrk a.address)) := by
  constructor
  · intro h
    have : isRpa a = false := by
      rw [← isRpa_iff] at h; simpa using h
    simp [resolvePrivate, this]
  · intro h i
    have hr : isRpa a = true := (isRpa_iff a).mpr h
    have hm : ∀ k, matchesIrk ah k a = true ↔ RpaOf ah k a.address := fun k => by
      rw [matchesIrk_iff]; exact ⟨fun x => x.2, fun x => ⟨h.1, x⟩⟩
    have hm' : ∀ k, matchesIrk ah k a = false ↔ ¬ RpaOf ah k a.address := fun k => by
      rw [← hm]; simp
    simp only [resolvePrivate, hr, Bool.true_eq_false, if_false]
    by_cases he : s.resolvingListEnabled = true
    · simp only [he, Bool.true_eq_false, if_false, true_and, Option.map_eq_some_iff, findResolving,
        List.find?_eq_some_iff_append]
      constructor
      · rintro ⟨e, ⟨hk, as, bs, hl, hb⟩, rfl⟩
        exact ⟨as, e, bs, hl, rfl, (hm _).mp hk, fun x hx => (hm' _).mp (by simpa using hb x hx)⟩
      · rintro ⟨as, e, bs, hl, rfl, hk, hb⟩
        exact ⟨e, ⟨(hm _).mpr hk, as, bs, hl, fun x hx => by simpa using (hm' _).mpr (hb x hx)⟩, rfl⟩
    · simp [he]

/-- A controller recognises the address another one generated from a key it knows: if
resolution is on and the first entry whose key explains the address is the one
that holds the key, the address is taken for that peer. -/
theorem C32_peer_recognised (ah : Hash) (d : Draws) (s : Le.State) (before after : List RlEntry)
    (e : RlEntry) (hen : s.resolvingListEnabled = true)
    (hl : s.resolvingList = before ++ e :: after)
    (hb : ∀ x ∈ before, ¬ RpaOf ah x.peerIrk (makeRpa ah d e.peerIrk)) :
    resolvePrivate ah s ⟨makeRpa ah d e.peerIrk, .randomDevice⟩ =
      some (peerDeviceAddress e.peerAddress e.peerType) := by
  have hw := (C32_well_formed ah d e.peerIrk).1
  exact ((C32_resolution ah s ⟨makeRpa ah d e.peerIrk, .randomDevice⟩).2 ⟨rfl, hw.1⟩ _).mpr
    ⟨hen, before, e, after, hl, rfl, hw, hb⟩

/-- Two controllers: `A` generates an address for its peer `B`, from the local key of
its entry for `B`; `B` has that key in its entry for `A`. `B` takes the address for
`A`. -/
theorem C32_two_controllers (ah : Hash) (d : Draws) (a b : Le.State) (idB : AddressWithType)
    (ea : RlEntry) (before after : List RlEntry) (eb : RlEntry) (x : AddressWithType)
    (hfind : a.resolvingList.find? (fun e => idB.address = e.peerAddress ∧ idB.toPeerType = e.peerType) = some ea)
    (hkey : eb.peerIrk = ea.localIrk)
    (hen : b.resolvingListEnabled = true) (hl : b.resolvingList = before ++ eb :: after)
    (hx : (generateRpa (makeRpa ah d) idB .loc a.resolvingList).2 = some x)
    (hb : ∀ y ∈ before, ¬ RpaOf ah y.peerIrk x.address) :
    resolvePrivate ah b x = some (peerDeviceAddress eb.peerAddress eb.peerType) := by
  have hx' : x = ⟨makeRpa ah d eb.peerIrk, .randomDevice⟩ := by
    clear hb hl
    generalize a.resolvingList = l at hfind hx
    induction l with
    | nil => cases hfind
    | cons y l ih =>
      rw [List.find?_cons] at hfind
      simp only [generateRpa] at hx
      by_cases hy : idB.address = y.peerAddress ∧ idB.toPeerType = y.peerType
      · rw [if_pos hy] at hx
        simp only [hy, and_self, decide_true, Option.some.injEq] at hfind
        subst hfind
        rw [hkey]
        simpa using hx.symm
      · rw [if_neg hy] at hx
        have : decide (idB.address = y.peerAddress ∧ idB.toPeerType = y.peerType) = false := by simp [hy]
        rw [this] at hfind
        exact ih hfind hx
  subst hx'
  exact C32_peer_recognised ah d b before after eb hen hl hb

/-- An address generated from a local key is accepted as the target of a directed
PDU of the peer the key is for. -/
theorem C32_target_accepted (ah : Hash) (cfg : Config) (d : Draws) (s : Le.State) (e : RlEntry)
    (hen : s.resolvingListEnabled = true) (he : e ∈ s.resolvingList) :
    validateTarget ah cfg s ⟨makeRpa ah d e.localIrk, .randomDevice⟩
      (peerDeviceAddress e.peerAddress e.peerType) = true := by
  have hw := (C32_well_formed ah d e.localIrk).1
  have hm := (matchesIrk_iff ah e.localIrk ⟨makeRpa ah d e.localIrk, .randomDevice⟩).mpr ⟨rfl, hw⟩
  have hr := (isRpa_iff ⟨makeRpa ah d e.localIrk, .randomDevice⟩).mpr ⟨rfl, hw.1⟩
  unfold validateTarget
  rw [if_pos hr]
  split
  · rfl
  · simp only [resolveTarget, hen, Bool.true_and, List.any_eq_true]
    exact ⟨e, he, by simp [hm]⟩

/-- A resolvable target is accepted for no other reason. -/
theorem C32_target_only (ah : Hash) (cfg : Config) (s : Le.State) (t adv : AddressWithType)
    (h : validateTarget ah cfg s t adv = true) :
    (t = ⟨cfg.publicAddress, .publicDevice⟩ ∨ t = ⟨s.randomAddress, .randomDevice⟩) ∨
    s.resolvingListEnabled = true ∧ ∃ e ∈ s.resolvingList,
      adv = peerDeviceAddress e.peerAddress e.peerType ∧ t.type = .randomDevice ∧
        RpaOf ah e.localIrk t.address := by
  unfold validateTarget at h
  split at h
  · rename_i hl
    left
    obtain ⟨t, ty⟩ := t
    cases ty <;> simp_all [isLocal]
  · split at h
    · right
      simp only [resolveTarget, Bool.and_eq_true, List.any_eq_true, beq_iff_eq, matchesIrk_iff] at h
      obtain ⟨h1, e, he, h2, h3, h4⟩ := h
      exact ⟨h1, e, he, h2, h3, h4⟩
    · cases h

/-- At every point of every history, the addresses a host reads with LE Read Local
Resolvable Address and LE Read Peer Resolvable Address are resolvable private
addresses of the local and of the peer key of an entry for that peer. -/
theorem C32_addresses_read (ah : Hash) (cfg : Config) (a : Option Address) (ops : List Op)
    (s : State) (obs : List Obs) (hg : ∀ o ∈ ops, o.Genuine ah)
    (h : run ah cfg ops (initial a) = .ok (s, obs)) (t : PeerAddressType) (i x : Address) :
    (readLocalRpa s.le t i = some x →
      ∃ e ∈ s.le.resolvingList, e.peerType = t ∧ e.peerAddress = i ∧ RpaOf ah e.localIrk x) ∧
    (readPeerRpa s.le t i = some x →
      ∃ e ∈ s.le.resolvingList, e.peerType = t ∧ e.peerAddress = i ∧ RpaOf ah e.peerIrk x) := by
  have hs := run_good ops (initial a) (s, obs) hg (fun e he => by cases he) h
  constructor
  · intro hr
    obtain ⟨e, he, hx⟩ := List.exists_of_findSome?_eq_some hr
    split at hx
    · rename_i hc; exact ⟨e, he, hc.1, hc.2, (hs e he).1 x hx⟩
    · cases hx
  · intro hr
    obtain ⟨e, he, hx⟩ := List.exists_of_findSome?_eq_some hr
    split at hx
    · rename_i hc; exact ⟨e, he, hc.1, hc.2, (hs e he).2 x hx⟩
    · cases hx

/-! ### The statements are about something -/

/-- A hash for the examples. -/
def exampleHash : Hash := fun k p => p ^^^ (k.setWidth 24)

/-- Draws that are replaced, and draws that are not. -/
example : (makeRpa exampleHash ⟨0, 0, 0xc0, 0xfd⟩ 7#128).toNat = 0x4000fe4000f9 := by decide +kernel
example : (makeRpa exampleHash ⟨0x34, 0x12, 0xff, 0⟩ 7#128).toNat = 0x7f12347f1233 := by decide +kernel

/-- Another device's key does not explain the address. -/
example : ¬ RpaOf exampleHash 8#128 (makeRpa exampleHash ⟨0x34, 0x12, 0xff, 0⟩ 7#128) := by
  simp only [RpaOf]; decide +kernel

/-- A controller that knows two peers takes the address of the second for what it is. -/
example : resolvePrivate exampleHash
    { resolvingListEnabled := true, resolvingList := [⟨.pub, 1, 8, 1, .network, none, none⟩, ⟨.random, 2, 7, 1, .network, none, none⟩] }
    ⟨makeRpa exampleHash ⟨0x34, 0x12, 0xff, 0⟩ 7, .randomDevice⟩ = some ⟨2, .randomDevice⟩ := by
  decide +kernel

end Verif.Ll
