import Verif.Ll.ActiveLemmas
import Verif.Ll.PropsConn
import Verif.Ll.PropsScan
/-!
# C53: the initiator's requests, C54: the advertiser's acceptance
-/

namespace Verif.Ll
open Verif.Le

/-! ### Lemmas: generated addresses do not matter -/

/-- The part of a resolving list entry that the host gave. -/
def entryKey (e : RlEntry) : Address × PeerAddressType × Irk × Irk :=
  (e.peerAddress, e.peerType, e.peerIrk, e.localIrk)

/-- The same state but for the addresses in the resolving list. -/
def SameKeys (s s' : Le.State) : Prop :=
  ∃ l, s' = { s with resolvingList := l } ∧ l.map entryKey = s.resolvingList.map entryKey

theorem SameKeys.refl (s : Le.State) : SameKeys s s := ⟨_, rfl, rfl⟩

theorem SameKeys.trans {a b c : Le.State} (h1 : SameKeys a b) (h2 : SameKeys b c) : SameKeys a c := by
  obtain ⟨l, rfl, h1⟩ := h1
  obtain ⟨l', rfl, h2⟩ := h2
  exact ⟨l', rfl, h2.trans h1⟩

theorem SameKeys.update (ah : Hash) (s : Le.State) (a : AddressWithType) :
    SameKeys s (resolveUpdate ah s a) := by
  have hm : ∀ (q : RlEntry → Bool) (f : RlEntry → RlEntry) (l : List RlEntry),
      (∀ e, entryKey (f e) = entryKey e) → (modifyFirst q f l).map entryKey = l.map entryKey := by
    intro q f l hf
    induction l with
    | nil => rfl
    | cons b l ih => simp only [modifyFirst]; split <;> simp [hf, ih]
  unfold resolveUpdate
  split
  · exact ⟨_, rfl, hm _ _ _ (fun e => rfl)⟩
  · exact .refl _

theorem SameKeys.generated (rnd : Irk → Address) (s : Le.State) (r : AddressWithType) :
    SameKeys s (generated rnd s r) := by
  refine ⟨_, rfl, ?_⟩
  generalize s.resolvingList = l
  induction l with
  | nil => rfl
  | cons e l ih =>
    simp only [generateRpa]
    split
    · rfl
    · simp only [List.map_cons, ih]

theorem find_key {β : Type} (p : Address × PeerAddressType × Irk × Irk → Bool)
    (g : Address × PeerAddressType × Irk × Irk → β) (l l' : List RlEntry)
    (h : l'.map entryKey = l.map entryKey) :
    (l'.find? (fun e => p (entryKey e))).map (fun e => g (entryKey e)) =
      (l.find? (fun e => p (entryKey e))).map (fun e => g (entryKey e)) := by
  have h1 : ∀ l : List RlEntry, (l.find? (fun e => p (entryKey e))).map (fun e => g (entryKey e)) =
      ((l.map entryKey).find? p).map g := by
    intro l
    rw [List.find?_map]
    simp only [Option.map_map]
    rfl
  rw [h1, h1, h]

theorem any_key (p : Address × PeerAddressType × Irk × Irk → Bool) (l l' : List RlEntry)
    (h : l'.map entryKey = l.map entryKey) :
    l'.any (fun e => p (entryKey e)) = l.any (fun e => p (entryKey e)) := by
  have h1 : ∀ l : List RlEntry, l.any (fun e => p (entryKey e)) = (l.map entryKey).any p := by
    intro l; rw [List.any_map]; rfl
  rw [h1, h1, h]

theorem SameKeys.resolved {s s' : Le.State} (h : SameKeys s s') (ah : Hash) (a : AddressWithType) :
    Ll.resolved ah s' a = Ll.resolved ah s a := by
  obtain ⟨l, rfl, hl⟩ := h
  unfold Ll.resolved resolvePrivate findResolving
  have := find_key (fun k => matchesIrk ah k.2.2.1 a) (fun k => peerDeviceAddress k.1 k.2.1) _ _ hl
  simp only [entryKey] at this
  simp only [this]

theorem SameKeys.accepts {s s' : Le.State} (h : SameKeys s s') (ah : Hash) (cfg : Config) (d : Bool)
    (r t : AddressWithType) : initiatorAccepts ah cfg s' d r t = initiatorAccepts ah cfg s d r t := by
  obtain ⟨l, rfl, hl⟩ := h
  unfold initiatorAccepts validateTarget resolveTarget
  have := any_key (fun k => r == peerDeviceAddress k.1 k.2.1 && matchesIrk ah k.2.2.2 t) _ _ hl
  simp only [entryKey] at this
  simp only [this]
  rfl

theorem SameKeys.own {s s' : Le.State} (h : SameKeys s s') {cfg : Config} {rnd : Irk → Address}
    {r : AddressWithType} {t : OwnAddressType} {own : AddressWithType}
    (ho : OwnFor cfg s' rnd r t own) : OwnFor cfg s rnd r t own := by
  obtain ⟨l, rfl, hl⟩ := h
  have mem : ∀ {a b : List RlEntry}, a.map entryKey = b.map entryKey → ∀ e ∈ a, ∃ e' ∈ b, entryKey e' = entryKey e := by
    intro a b hab e he
    have : entryKey e ∈ b.map entryKey := by rw [← hab]; exact List.mem_map.mpr ⟨e, he, rfl⟩
    obtain ⟨e', h1, h2⟩ := List.mem_map.mp this
    exact ⟨e', h1, h2⟩
  have h1 : ∀ {o : AddressWithType}, (∃ e ∈ l, OwnFor.IsPeer e r ∧ o = ⟨rnd e.localIrk, .randomDevice⟩) →
      ∃ e ∈ s.resolvingList, OwnFor.IsPeer e r ∧ o = ⟨rnd e.localIrk, .randomDevice⟩ := by
    rintro o ⟨e, he, hp, ho⟩
    obtain ⟨e', he', hk⟩ := mem hl e he
    simp only [entryKey, Prod.mk.injEq] at hk
    exact ⟨e', he', ⟨hk.1.trans hp.1, hk.2.1.trans hp.2⟩, by rw [ho, hk.2.2.2]⟩
  have h2 : (∀ e ∈ l, ¬ OwnFor.IsPeer e r) → ∀ e ∈ s.resolvingList, ¬ OwnFor.IsPeer e r := by
    intro hn e he hp
    obtain ⟨e', he', hk⟩ := mem hl.symm e he
    simp only [entryKey, Prod.mk.injEq] at hk
    exact hn e' he' ⟨hk.1.trans hp.1, hk.2.1.trans hp.2⟩
  cases t
  · exact ho
  · exact ho
  · rcases ho with ho | ⟨ho, he⟩
    · exact .inl (h1 ho)
    · exact .inr ⟨h2 ho, he⟩
  · rcases ho with ho | ⟨ho, he⟩
    · exact .inl (h1 ho)
    · exact .inr ⟨h2 ho, he⟩

theorem scanRequest_keys {cfg : Config} {rnd : Irk → Address} {s : State} {adv r : AddressWithType}
    {sc fr : Bool} {req : ScanRequest} {x : State × List Out}
    (h : scanRequest cfg rnd s adv r sc fr req = .ok x) : SameKeys s.le x.1.le := by
  unfold scanRequest at h
  repeat' split at h
  all_goals first | (cases h; done) | (cases h; exact .refl _) | (cases h; exact .generated _ _ _)

theorem scanLegacy_keys {ah : Hash} {cfg : Config} {rnd : Irk → Address} {now : Nat} {s : State}
    {p : LegacyPdu} {x : State × List Out} (h : scanLegacy ah cfg rnd now s p = .ok x) :
    SameKeys s.le x.1.le := by
  simp only [scanLegacy] at h
  split at h
  · cases h; exact .refl _
  split at h
  · cases h; exact .update _ _ _
  obtain ⟨q, hq, hx⟩ := Res.bind_eq_ok h
  cases hx
  have := scanRequest_keys hq
  obtain ⟨hi, hh⟩ := remember_frame { s with le := resolveUpdate ah s.le p.adv } (.legacyAdv p)
  rw [hh] at this
  exact (SameKeys.update ah s.le p.adv).trans this

theorem scanExtended_keys {ah : Hash} {cfg : Config} {rnd : Irk → Address} {now : Nat} {s : State}
    {p : ExtPdu} {x : State × List Out} (h : scanExtended ah cfg rnd now s p = .ok x) :
    SameKeys s.le x.1.le := by
  simp only [scanExtended] at h
  repeat' (split at h; (cases h; exact .refl _))
  split at h
  · cases h; exact .update _ _ _
  obtain ⟨q, hq, hx⟩ := Res.bind_eq_ok h
  cases hx
  have := scanRequest_keys hq
  obtain ⟨hi, hh⟩ := remember_frame { s with le := resolveUpdate ah s.le p.adv } (.extAdv p)
  rw [hh] at this
  exact (SameKeys.update ah s.le p.adv).trans this

theorem requestsOf_append (a b : List Out) : requestsOf (a ++ b) = requestsOf a ++ requestsOf b := by
  simp [requestsOf]

theorem requestsOf_nil {l : List Out} (h : ∀ o ∈ l, ∀ i a q, o ≠ .send (.connect i a q)) : requestsOf l = [] := by
  simp only [requestsOf, List.filterMap_eq_nil_iff]
  intro o ho
  have := h o ho
  split
  · exact absurd rfl (this _ _ _)
  · rfl

/-- The same, as a statement about the initiator. -/
theorem initiate_requests {ah : Hash} {cfg : Config} {rnd : Irk → Address} {s : State} {s0 : Le.State}
    {adv target : AddressWithType} {c d : Bool} {x : State × List Out}
    (hk : SameKeys s0 s.le) (h : initiate ah cfg rnd s adv target c d = .ok x) :
    (requestsOf x.2 ≠ [] ↔
      c = true ∧ s0.initiator.pendingConnectRequest = none ∧
      ∃ r, Identity ah s0 adv r ∧ InitiatorWants ah cfg s0 (d = true) r target) ∧
    (requestsOf x.2).length ≤ 1 ∧
    ∀ own a q, (own, a, q) ∈ requestsOf x.2 →
      a = adv ∧ q = requestParams s0 ∧
      ∃ r, Identity ah s0 adv r ∧ OwnFor cfg s0 rnd r s0.initiator.ownAddressType own := by
  have hi : s.le.initiator = s0.initiator := by obtain ⟨l, he, -⟩ := hk; rw [he]
  have hw : initiatorAccepts ah cfg s0 d (resolved ah s0 adv) target = true ↔
      ∃ r, Identity ah s0 adv r ∧ InitiatorWants ah cfg s0 (d = true) r target := by
    rw [initiatorAccepts_iff]
    constructor
    · intro h; exact ⟨_, (identity_iff _ _ _ _).mp rfl, h⟩
    · rintro ⟨r, hr, h⟩
      rw [← identity_iff] at hr
      rw [hr]; exact h
  rw [← hw]
  have hc := initiate_cases h
  rw [hk.resolved, hk.accepts, hi] at hc
  rcases hc with ⟨h1, h2⟩ | ⟨h1, h2, h3, own, h4, h5⟩
  · rw [h1]
    exact ⟨⟨fun hc => absurd rfl hc, fun hc => absurd hc h2⟩, Nat.zero_le _, fun _ _ _ hm => (by cases hm)⟩
  · rw [h5]
    refine ⟨⟨fun _ => ⟨h1, h2, h3⟩, fun _ => by simp [requestsOf]⟩, by simp [requestsOf], ?_⟩
    intro o a q hm
    simp only [requestsOf, List.filterMap_cons, List.filterMap_nil, List.mem_singleton, Prod.mk.injEq] at hm
    obtain ⟨rfl, rfl, rfl⟩ := hm
    refine ⟨rfl, by simp only [requestParams, hi], _, (identity_iff _ _ _ _).mp rfl, hk.own h4⟩

/-! ### C53 -/

/-- A connect request is sent for a legacy advertising PDU exactly if a connection is
being created, no request is pending, the PDU is connectable, and it comes from a device
the host wants, for this device if it is directed. At most one is sent, to the
advertiser, from the address the host chose, with the maximum interval, the latency and
the timeout that the host gave for the LE 1M PHY.

The property asks for no failure (see `C53_no_address_violated`) and for the parameters
of the PHY that is used (see `C53_parameters_violated`). -/
theorem C53_legacy_partial {ah : Hash} {cfg : Config} {rnd : Irk → Address} {now : Nat} {s s' : State}
    {p : LegacyPdu} {o : Obs} (h : step ah cfg s (.receive rnd now (.legacyAdv p)) = .ok (s', o)) :
    (requestsOf o.out ≠ [] ↔
      s.le.initiator.enable = true ∧ p.type.connectable = true ∧
      s.le.initiator.pendingConnectRequest = none ∧
      ∃ r, Identity ah s.le p.adv r ∧ InitiatorWants ah cfg s.le (p.type.directed = true) r p.target) ∧
    (requestsOf o.out).length ≤ 1 ∧
    ∀ own adv q, (own, adv, q) ∈ requestsOf o.out →
      adv = p.adv ∧
      q = ⟨s.le.initiator.le1m.params.intervalMax, s.le.initiator.le1m.params.maxLatency,
        s.le.initiator.le1m.params.supervisionTimeout⟩ ∧
      ∃ r, Identity ah s.le p.adv r ∧ OwnFor cfg s.le rnd r s.le.initiator.ownAddressType own := by
  simp only [step] at h
  obtain ⟨x, hx, h⟩ := Res.bind_eq_ok h
  cases h
  obtain ⟨u, v, hu, hv, rfl⟩ := receive_legacyAdv hx
  have h0 : requestsOf u.2 = [] := by
    obtain ⟨w, hw, ho⟩ := scanLegacy_out hu
    rw [ho]
    apply requestsOf_nil
    intro o hm i a q hc
    subst hc
    rcases List.mem_append.mp hm with hm | hm
    · split at hm
      · unfold legacyReports at hm
        simp only [List.mem_append] at hm
        rcases hm with (hm | hm) | hm <;> (split at hm <;> simp at hm)
      · cases hm
    · rcases hw with rfl | ⟨-, own, rfl⟩ <;> simp at hm
  simp only [requestsOf_append, h0, List.nil_append]
  have hk := scanLegacy_keys hu
  have hi : u.1.le.initiator = s.le.initiator := by obtain ⟨l, he, -⟩ := hk; rw [he]
  simp only [connectLegacy, hi] at hv
  split at hv
  · rename_i he
    cases hv
    refine ⟨⟨fun hc => absurd rfl hc, fun hc => ?_⟩, Nat.zero_le _, fun _ _ _ hm => (by cases hm)⟩
    rw [he] at hc; cases hc.1
  · rename_i he
    obtain ⟨g1, g2, g3⟩ := initiate_requests hk hv
    refine ⟨?_, g2, g3⟩
    rw [g1]
    have he : s.le.initiator.enable = true := by simpa using he
    simp only [he, true_and]

/-- The same for extended advertising PDUs, which are only looked at when the host uses
the extended commands. -/
theorem C53_extended_partial {ah : Hash} {cfg : Config} {rnd : Irk → Address} {now : Nat} {s s' : State}
    {p : ExtPdu} {o : Obs} (h : step ah cfg s (.receive rnd now (.extAdv p)) = .ok (s', o)) :
    (requestsOf o.out ≠ [] ↔
      s.le.initiator.enable = true ∧ s.le.extendedInUse = true ∧ p.connectable = true ∧
      s.le.initiator.pendingConnectRequest = none ∧
      ∃ r, Identity ah s.le p.adv r ∧ InitiatorWants ah cfg s.le (p.directed = true) r p.target) ∧
    (requestsOf o.out).length ≤ 1 ∧
    ∀ own adv q, (own, adv, q) ∈ requestsOf o.out →
      adv = p.adv ∧
      q = ⟨s.le.initiator.le1m.params.intervalMax, s.le.initiator.le1m.params.maxLatency,
        s.le.initiator.le1m.params.supervisionTimeout⟩ ∧
      ∃ r, Identity ah s.le p.adv r ∧ OwnFor cfg s.le rnd r s.le.initiator.ownAddressType own := by
  simp only [step] at h
  obtain ⟨x, hx, h⟩ := Res.bind_eq_ok h
  cases h
  obtain ⟨u, v, hu, hv, rfl⟩ := receive_extAdv hx
  have h0 : requestsOf u.2 = [] := by
    obtain ⟨w, hw, ho⟩ := scanExtended_out hu
    rw [ho]
    apply requestsOf_nil
    intro o hm i a q hc
    subst hc
    rcases List.mem_append.mp hm with hm | hm
    · split at hm
      · simp [extReports] at hm
      · cases hm
    · rcases hw with rfl | ⟨-, own, rfl⟩ <;> simp at hm
  simp only [requestsOf_append, h0, List.nil_append]
  have hk := scanExtended_keys hu
  have hi : u.1.le.initiator = s.le.initiator := by obtain ⟨l, he, -⟩ := hk; rw [he]
  have hx : u.1.le.extendedInUse = s.le.extendedInUse := by obtain ⟨l, he, -⟩ := hk; rw [he]
  simp only [connectExtended, hi, hx] at hv
  split at hv
  · rename_i he
    cases hv
    refine ⟨⟨fun hc => absurd rfl hc, fun hc => ?_⟩, Nat.zero_le _, fun _ _ _ hm => (by cases hm)⟩
    rw [he] at hc; cases hc.1
  split at hv
  · rename_i he
    cases hv
    refine ⟨⟨fun hc => absurd rfl hc, fun hc => ?_⟩, Nat.zero_le _, fun _ _ _ hm => (by cases hm)⟩
    rw [he] at hc; cases hc.2.1
  · rename_i he he'
    obtain ⟨g1, g2, g3⟩ := initiate_requests hk hv
    refine ⟨?_, g2, g3⟩
    rw [g1]
    have he : s.le.initiator.enable = true := by simpa using he
    have he' : s.le.extendedInUse = true := by simpa using he'
    simp only [he, he', true_and]

/-- Whether the last of some operations makes the controller fail an assertion. -/
def abortsAt (o : Op) (ops : List Op) : Bool :=
  match run (fun _ _ => 0) Config.default ops (initial none) with
  | .ok (s, _) => match step (fun _ _ => 0) Config.default s o with | .abort => true | _ => false
  | _ => false

/-- **Counterexample.** The host may create a connection to a device of the filter
accept list with a resolvable or random own address, before it sets a random address.
The PDU of a listed device then makes the controller fail. -/
theorem C53_no_address_violated :
    abortsAt (.receive someRnd 0 (.legacyAdv ⟨advertiserA, ⟨0, .publicDevice⟩, .advInd, []⟩))
      [.cmd (.addFilterAccept .pub 0xA),
       .cmd (.createConnection someRnd .useFilterAcceptListWithPeerAddress advertiserA .resolvableOrRandom
         ⟨0x10, 0x10, 0x18, 0x28, 0, 0x64, 0, 0⟩)] = true := by
  decide +kernel

/-- **Counterexample.** A connection created with the LE Coded PHY only is requested
with parameters the host did not give: an interval of 0 and a timeout of 0. -/
theorem C53_parameters_violated :
    (match run (fun _ _ => 0) Config.default
        [.cmd (.extendedCreateConnection someRnd .usePeerAddress .pub advertiserA 4
          [⟨0x10, 0x10, 0x18, 0x28, 0, 0x64, 0, 0⟩]),
         .receive someRnd 0 (.extAdv ⟨advertiserA, ⟨0, .publicDevice⟩, true, false, false, 0, .codedS8, .codedS8, 0, []⟩)]
        (initial none) with
     | .ok (_, obs) => obs
     | _ => []) =
    [⟨some .success, []⟩, ⟨none, [.send (.connect centralAddress advertiserA ⟨0, 0, 0⟩)]⟩] := by
  decide +kernel

/-- The device that is asked for gets a request, another does not. -/
example :
    (seen [.cmd (.createConnection someRnd .usePeerAddress advertiserA .pub ⟨0x10, 0x10, 0x18, 0x28, 0, 0x64, 0, 0⟩),
      .receive someRnd 0 (.legacyAdv ⟨advertiserB, ⟨0, .publicDevice⟩, .advInd, []⟩),
      .receive someRnd 0 (.legacyAdv ⟨advertiserA, ⟨0, .publicDevice⟩, .advInd, []⟩),
      .receive someRnd 0 (.legacyAdv ⟨advertiserA, ⟨0, .publicDevice⟩, .advInd, []⟩)]).2 =
    [[], [], [.send (.connect centralAddress advertiserA ⟨0x28, 0, 0x64⟩)], []] := by
  decide +kernel

end Verif.Ll
