import Verif.Ll.HistLemmas
import Verif.Ll.SpecInit
/-!
# Active scanning and initiating: helper lemmas
-/

namespace Verif.Ll
open Verif.Le

theorem generateRpa_find (rnd : Irk → Address) (r : AddressWithType) (l : List RlEntry) :
    (∃ e ∈ l, OwnFor.IsPeer e r ∧ (generateRpa rnd r .loc l).2 = some ⟨rnd e.localIrk, .randomDevice⟩) ∨
    ((∀ e ∈ l, ¬ OwnFor.IsPeer e r) ∧ (generateRpa rnd r .loc l).2 = none) := by
  induction l with
  | nil => exact .inr ⟨fun e he => (by cases he), rfl⟩
  | cons e l ih =>
    have hp : (r.address = e.peerAddress ∧ r.toPeerType = e.peerType) ↔ OwnFor.IsPeer e r := by
      unfold OwnFor.IsPeer AddressWithType.toPeerType
      cases r.type <;> simp [eq_comm]
    simp only [generateRpa]
    by_cases h : r.address = e.peerAddress ∧ r.toPeerType = e.peerType
    · rw [if_pos h]
      exact .inl ⟨e, List.mem_cons_self .., hp.mp h, rfl⟩
    · rw [if_neg h]
      rcases ih with ⟨e', h1, h2, h3⟩ | ⟨h1, h2⟩
      · exact .inl ⟨e', List.mem_cons_of_mem _ h1, h2, h3⟩
      · refine .inr ⟨fun x hx => ?_, h2⟩
        rcases List.mem_cons.mp hx with rfl | hx
        · exact fun hi => h (hp.mpr hi)
        · exact h1 x hx

theorem ownAddress_for {cfg : Config} {s : Le.State} {rnd : Irk → Address} {r own : AddressWithType}
    {t : OwnAddressType}
    (h : ownAddress cfg s t (generateRpa rnd r .loc s.resolvingList).2 = some own) :
    OwnFor cfg s rnd r t own := by
  have hg := generateRpa_find rnd r s.resolvingList
  cases t <;> simp only [ownAddress] at h
  · cases h; rfl
  · split at h
    · cases h
    · cases h; rfl
  · rcases hg with ⟨e, h1, h2, h3⟩ | ⟨h1, h3⟩
    · rw [h3] at h; cases h; exact .inl ⟨e, h1, h2, rfl⟩
    · rw [h3] at h; cases h; exact .inr ⟨h1, rfl⟩
  · split at h
    · cases h
    · rcases hg with ⟨e, h1, h2, h3⟩ | ⟨h1, h3⟩
      · rw [h3] at h; cases h; exact .inl ⟨e, h1, h2, rfl⟩
      · rw [h3] at h; cases h; exact .inr ⟨h1, rfl⟩

theorem isPeer_update (ah : Hash) (s : Le.State) (a r own : AddressWithType) (cfg : Config)
    (rnd : Irk → Address) (t : OwnAddressType) :
    OwnFor cfg (resolveUpdate ah s a) rnd r t own → OwnFor cfg s rnd r t own := by
  have hr : (resolveUpdate ah s a).randomAddress = s.randomAddress := by
    obtain ⟨l, hl⟩ := resolveUpdate_frame ah s a; rw [hl]
  have hmem : ∀ (q : RlEntry → Bool) (f : RlEntry → RlEntry) (l : List RlEntry),
      (∀ e, (f e).peerAddress = e.peerAddress ∧ (f e).peerType = e.peerType ∧ (f e).localIrk = e.localIrk) →
      (∀ e ∈ modifyFirst q f l, ∃ e' ∈ l, e'.peerAddress = e.peerAddress ∧ e'.peerType = e.peerType ∧ e'.localIrk = e.localIrk) ∧
      (∀ e' ∈ l, ∃ e ∈ modifyFirst q f l, e.peerAddress = e'.peerAddress ∧ e.peerType = e'.peerType) := by
    intro q f l hf
    induction l with
    | nil => exact ⟨fun e he => (by cases he), fun e he => (by cases he)⟩
    | cons b l ih =>
      simp only [modifyFirst]
      split
      · refine ⟨fun e he => ?_, fun e he => ?_⟩
        · rcases List.mem_cons.mp he with rfl | he
          · exact ⟨b, List.mem_cons_self .., (hf b).1.symm, (hf b).2.1.symm, (hf b).2.2.symm⟩
          · exact ⟨e, List.mem_cons_of_mem _ he, rfl, rfl, rfl⟩
        · rcases List.mem_cons.mp he with rfl | he
          · exact ⟨f e, List.mem_cons_self .., (hf e).1, (hf e).2.1⟩
          · exact ⟨e, List.mem_cons_of_mem _ he, rfl, rfl⟩
      · refine ⟨fun e he => ?_, fun e he => ?_⟩
        · rcases List.mem_cons.mp he with rfl | he
          · exact ⟨e, List.mem_cons_self .., rfl, rfl, rfl⟩
          · obtain ⟨e', h1, h2⟩ := ih.1 e he
            exact ⟨e', List.mem_cons_of_mem _ h1, h2⟩
        · rcases List.mem_cons.mp he with rfl | he
          · exact ⟨e, List.mem_cons_self .., rfl, rfl⟩
          · obtain ⟨e', h1, h2⟩ := ih.2 e he
            exact ⟨e', List.mem_cons_of_mem _ h1, h2⟩
  have hl : (∀ e ∈ (resolveUpdate ah s a).resolvingList, ∃ e' ∈ s.resolvingList,
        e'.peerAddress = e.peerAddress ∧ e'.peerType = e.peerType ∧ e'.localIrk = e.localIrk) ∧
      (∀ e' ∈ s.resolvingList, ∃ e ∈ (resolveUpdate ah s a).resolvingList,
        e.peerAddress = e'.peerAddress ∧ e.peerType = e'.peerType) := by
    unfold resolveUpdate
    split
    · exact hmem _ _ _ (fun e => ⟨rfl, rfl, rfl⟩)
    · exact ⟨fun e he => ⟨e, he, rfl, rfl, rfl⟩, fun e he => ⟨e, he, rfl, rfl⟩⟩
  have h1 : ∀ {o : AddressWithType}, (∃ e ∈ (resolveUpdate ah s a).resolvingList, OwnFor.IsPeer e r ∧ o = ⟨rnd e.localIrk, .randomDevice⟩) →
      ∃ e ∈ s.resolvingList, OwnFor.IsPeer e r ∧ o = ⟨rnd e.localIrk, .randomDevice⟩ := by
    rintro o ⟨e, he, hp, ho⟩
    obtain ⟨e', he', g1, g2, g3⟩ := hl.1 e he
    exact ⟨e', he', ⟨g1.trans hp.1, g2.trans hp.2⟩, by rw [ho, g3]⟩
  have h2 : (∀ e ∈ (resolveUpdate ah s a).resolvingList, ¬ OwnFor.IsPeer e r) → ∀ e ∈ s.resolvingList, ¬ OwnFor.IsPeer e r := by
    intro h e he hp
    obtain ⟨e', he', g1, g2⟩ := hl.2 e he
    exact h e' he' ⟨g1.trans hp.1, g2.trans hp.2⟩
  intro h
  cases t
  · exact h
  · simp only [OwnFor, hr] at h ⊢; exact h
  · rcases h with h | ⟨h, ho⟩
    · exact .inl (h1 h)
    · exact .inr ⟨h2 h, ho⟩
  · rcases h with h | ⟨h, ho⟩
    · exact .inl (h1 h)
    · exact .inr ⟨h2 h, by rw [ho, hr]⟩

theorem activeScanning_iff (s : Le.State) : activeScanning s = true ↔ ActiveScan s := by
  simp [activeScanning, ActiveScan]

theorem initiatorAccepts_iff (ah : Hash) (cfg : Config) (s : Le.State) (d : Bool)
    (r t : AddressWithType) :
    initiatorAccepts ah cfg s d r t = true ↔ InitiatorWants ah cfg s (d = true) r t := by
  unfold initiatorAccepts InitiatorWants
  cases s.initiator.filterPolicy <;> cases d <;> cases s.initiator.ownAddressType <;>
    simp [validateTarget_iff, falContains_iff, isRpa_form]

theorem initiatorAccepts_update (ah : Hash) (cfg : Config) (s : Le.State) (a : AddressWithType) (d : Bool)
    (r t : AddressWithType) :
    initiatorAccepts ah cfg (resolveUpdate ah s a) d r t = initiatorAccepts ah cfg s d r t := by
  obtain ⟨l, hl⟩ := resolveUpdate_frame ah s a
  have h1 := resolveTarget_update ah s a t r
  have h2 : isLocal cfg (resolveUpdate ah s a) t = isLocal cfg s t := by rw [hl]; rfl
  have h3 : falContains (resolveUpdate ah s a) r = falContains s r := by rw [hl]; rfl
  have h4 : (resolveUpdate ah s a).initiator = s.initiator := by rw [hl]
  unfold initiatorAccepts validateTarget
  rw [h1, h2, h3, h4]

/-- When an initiator sends a request, and which. -/
theorem initiate_cases {ah : Hash} {cfg : Config} {rnd : Irk → Address} {s : State}
    {adv target : AddressWithType} {c d : Bool} {x : State × List Out}
    (h : initiate ah cfg rnd s adv target c d = .ok x) :
    (x.2 = [] ∧ ¬ (c = true ∧ s.le.initiator.pendingConnectRequest = none ∧
      initiatorAccepts ah cfg s.le d (resolved ah s.le adv) target = true)) ∨
    (c = true ∧ s.le.initiator.pendingConnectRequest = none ∧
      initiatorAccepts ah cfg s.le d (resolved ah s.le adv) target = true ∧
      ∃ own, OwnFor cfg s.le rnd (resolved ah s.le adv) s.le.initiator.ownAddressType own ∧
        x.2 = [.send (.connect own adv (requestParams s.le))]) := by
  obtain ⟨l, hl⟩ := resolveUpdate_frame ah s.le adv
  have h4 : (resolveUpdate ah s.le adv).initiator = s.le.initiator := by rw [hl]
  simp only [initiate] at h
  split at h
  · rename_i h1; cases h; exact .inl ⟨rfl, by simp [h1]⟩
  rename_i h1
  split at h
  · rename_i h2
    cases h
    refine .inl ⟨rfl, ?_⟩
    rintro ⟨-, h3, -⟩
    rw [h3] at h2; cases h2
  rename_i h2
  rw [initiatorAccepts_update] at h
  split at h
  · rename_i h3; cases h; exact .inl ⟨rfl, by simp [h3]⟩
  rename_i h3
  split at h
  · cases h
  · rename_i own ho
    cases h
    refine .inr ⟨by simpa using h1, by simpa using h2, by simpa using h3, own, ?_, ?_⟩
    · rw [h4] at ho
      exact isPeer_update _ _ _ _ _ _ _ _ (ownAddress_for ho)
    · simp only [requestParams, h4]

end Verif.Ll

namespace Verif.Ll
open Verif.Le

theorem scanRequestsOf_append (a b : List Out) :
    scanRequestsOf (a ++ b) = scanRequestsOf a ++ scanRequestsOf b := by simp [scanRequestsOf]

theorem scanRequestsOf_legacyReports (ah : Hash) (s : Le.State) (p : LegacyPdu) (r : AddressWithType) :
    scanRequestsOf (legacyReports ah s p r) = [] := by
  unfold legacyReports
  generalize s.legacyInUse = lu
  generalize s.extendedInUse = eu
  generalize wantsDirectedReport ah s p.type.directed r p.target = wd
  cases lu <;> cases eu <;> cases wd <;> rfl

theorem scanRequestsOf_extReports (p : ExtPdu) (r : AddressWithType) :
    scanRequestsOf (extReports p r) = [] := by
  simp [scanRequestsOf, extReports, List.filterMap_eq_nil_iff]

/-- When a scan request is sent, for which address, and what it leaves behind. -/
theorem scanRequest_sent {ah : Hash} {cfg : Config} {rnd : Irk → Address} {s : State}
    {adv r a : AddressWithType} {sc fr : Bool} {req : ScanRequest} {p : Packet} {x : State × List Out}
    (h : scanRequest cfg rnd (remember { s with le := resolveUpdate ah s.le a } p) adv r sc fr req = .ok x) :
    (scanRequestsOf x.2 = [] ∧ x.1.pending = s.pending ∧
      ¬ (sc = true ∧ ActiveScan s.le ∧ mapFind s.pending adv = none ∧ fr = true)) ∨
    (sc = true ∧ ActiveScan s.le ∧ mapFind s.pending adv = none ∧ fr = true ∧
      x.1.pending = mapSet s.pending adv req ∧
      ∃ own, OwnFor cfg s.le rnd r s.le.scanner.ownAddressType own ∧ scanRequestsOf x.2 = [(own, adv)]) := by
  obtain ⟨l, hl⟩ := resolveUpdate_frame ah s.le a
  obtain ⟨hi, hh⟩ := remember_frame { s with le := resolveUpdate ah s.le a } p
  rw [hh] at h
  have hsc : (resolveUpdate ah s.le a).scanner = s.le.scanner := by rw [hl]
  have hact : activeScanning (resolveUpdate ah s.le a) = true ↔ ActiveScan s.le := by
    rw [activeScanning_iff]; unfold ActiveScan; rw [hsc]
  rcases scanRequest_cases h with ⟨rfl, hn⟩ | ⟨h1, h2, h3, h4, own, l', ho, rfl⟩
  · refine .inl ⟨rfl, rfl, ?_⟩
    rintro ⟨g1, g2, g3, g4⟩
    exact hn ⟨g1, hact.mpr g2, g3, g4⟩
  · refine .inr ⟨h1, hact.mp h2, h3, h4, rfl, own, ?_, rfl⟩
    simp only [hsc] at ho
    exact isPeer_update _ _ _ _ _ _ _ _ (ownAddress_for ho)

theorem scanExtended_requests {ah : Hash} {cfg : Config} {rnd : Irk → Address} {now : Nat} {s : State}
    {p : ExtPdu} {x : State × List Out} (h : scanExtended ah cfg rnd now s p = .ok x) :
    (scanRequestsOf x.2 = [] ∧ x.1.pending = s.pending ∧
      ¬ (reportsExtended ah cfg s p = true ∧ p.scannable = true ∧ ActiveScan s.le ∧ mapFind s.pending p.adv = none)) ∨
    (reportsExtended ah cfg s p = true ∧ p.scannable = true ∧ ActiveScan s.le ∧ mapFind s.pending p.adv = none ∧
      (∃ t, x.1.pending = mapSet s.pending p.adv ⟨p.connectable, true, p.primary, p.secondary, t⟩) ∧
      ∃ own, OwnFor cfg s.le rnd (resolved ah s.le p.adv) s.le.scanner.ownAddressType own ∧
        scanRequestsOf x.2 = [(own, p.adv)]) := by
  simp only [scanExtended] at h
  simp only [reportsExtended]
  split at h
  · rename_i h1; cases h; exact .inl ⟨rfl, rfl, by simp [h1]⟩
  rename_i h1
  split at h
  · rename_i h2; cases h; exact .inl ⟨rfl, rfl, by simp [h2]⟩
  rename_i h2
  split at h
  · rename_i h3; cases h; exact .inl ⟨rfl, rfl, by simp [h3]⟩
  rename_i h3
  rw [scanAccepts_update] at h
  split at h
  · rename_i h4; cases h; exact .inl ⟨rfl, rfl, by simp [h4]⟩
  rename_i h4
  rw [notDuplicate_update] at h
  obtain ⟨q, hq, hx⟩ := Res.bind_eq_ok h
  cases hx
  simp only [Bool.not_eq_false] at h1 h2 h3 h4
  simp only [h1, h2, h3, h4, Bool.true_and, scanRequestsOf_append]
  have he : scanRequestsOf (if notDuplicate s (.extAdv p) = true then extReports p (resolved ah s.le p.adv) else []) = [] := by
    split
    · exact scanRequestsOf_extReports _ _
    · rfl
  rw [he, List.nil_append]
  rcases scanRequest_sent hq with ⟨g1, g2, g3⟩ | ⟨g1, g2, g3, g4, g5, own, g6, g7⟩
  · exact .inl ⟨g1, g2, fun hx => g3 ⟨hx.2.1, hx.2.2.1, hx.2.2.2, hx.1⟩⟩
  · exact .inr ⟨g4, g1, g2, g3, ⟨_, g5⟩, own, g6, g7⟩

theorem scanLegacy_requests {ah : Hash} {cfg : Config} {rnd : Irk → Address} {now : Nat} {s : State}
    {p : LegacyPdu} {x : State × List Out} (h : scanLegacy ah cfg rnd now s p = .ok x) :
    (scanRequestsOf x.2 = [] ∧ x.1.pending = s.pending ∧
      ¬ (reportsLegacy ah cfg s p = true ∧ p.type.scannable = true ∧ ActiveScan s.le ∧ mapFind s.pending p.adv = none)) ∨
    (reportsLegacy ah cfg s p = true ∧ p.type.scannable = true ∧ ActiveScan s.le ∧ mapFind s.pending p.adv = none ∧
      (∃ t, x.1.pending = mapSet s.pending p.adv ⟨p.type.connectable, false, .le1m, .noPackets, t⟩) ∧
      ∃ own, OwnFor cfg s.le rnd (resolved ah s.le p.adv) s.le.scanner.ownAddressType own ∧
        scanRequestsOf x.2 = [(own, p.adv)]) := by
  simp only [scanLegacy] at h
  simp only [reportsLegacy]
  split at h
  · rename_i h1; cases h; exact .inl ⟨rfl, rfl, by simp [h1]⟩
  rename_i h1
  rw [scanAccepts_update] at h
  split at h
  · rename_i h4; cases h; exact .inl ⟨rfl, rfl, by simp [h4]⟩
  rename_i h4
  rw [notDuplicate_update] at h
  obtain ⟨q, hq, hx⟩ := Res.bind_eq_ok h
  cases hx
  simp only [Bool.not_eq_false] at h1 h4
  simp only [h1, h4, Bool.true_and, scanRequestsOf_append]
  have he : scanRequestsOf (if notDuplicate s (.legacyAdv p) = true then
      legacyReports ah (resolveUpdate ah s.le p.adv) p (resolved ah s.le p.adv) else []) = [] := by
    split
    · exact scanRequestsOf_legacyReports _ _ _ _
    · rfl
  rw [he, List.nil_append]
  rcases scanRequest_sent hq with ⟨g1, g2, g3⟩ | ⟨g1, g2, g3, g4, g5, own, g6, g7⟩
  · exact .inl ⟨g1, g2, fun hx => g3 ⟨hx.2.1, hx.2.2.1, hx.2.2.2, hx.1⟩⟩
  · exact .inr ⟨g4, g1, g2, g3, ⟨_, g5⟩, own, g6, g7⟩

theorem filter_find {m : List (AddressWithType × ScanRequest)} {f : AddressWithType × ScanRequest → Bool}
    {a : AddressWithType} (h : mapFind m a = none) : mapFind (m.filter f) a = none := by
  rw [Le.mapFind_none] at h ⊢
  intro hm
  obtain ⟨e, he, rfl⟩ := List.mem_map.mp hm
  exact h (List.mem_map.mpr ⟨e, List.mem_of_mem_filter he, rfl⟩)

/-- A request is pending only if it was, or is being sent. -/
theorem step_pending {ah : Hash} {cfg : Config} {s : State} {o : Op} {x : State × Obs}
    (h : step ah cfg s o = .ok x) {a : AddressWithType} (hp : mapFind x.1.pending a ≠ none) :
    mapFind s.pending a ≠ none ∨ ∃ own, .send (.scan own a) ∈ x.2.out := by
  cases o with
  | cmd c =>
    simp only [step] at h
    obtain ⟨y, hy, h⟩ := Res.bind_eq_ok h
    cases h
    simp only [command] at hy
    split at hy
    · cases hy
    · split at hy
      · cases hy; exact absurd rfl hp
      · cases hy; exact .inl hp
  | receive rnd now q =>
    simp only [step] at h
    obtain ⟨y, hy, h⟩ := Res.bind_eq_ok h
    cases h
    have fin : ∀ {adv : AddressWithType} {out tail : List Out} {own : AddressWithType} {req : ScanRequest} {pend : List (AddressWithType × ScanRequest)},
        pend = mapSet s.pending adv req → scanRequestsOf out = [(own, adv)] → mapFind pend a ≠ none →
        mapFind s.pending a ≠ none ∨ ∃ own, Out.send (.scan own a) ∈ out ++ tail := by
      intro adv out tail own req pend h1 h2 h3
      rw [h1, mapFind_mapSet] at h3
      split at h3
      · rename_i he
        subst he
        right
        have : (own, adv) ∈ scanRequestsOf out := by rw [h2]; simp
        obtain ⟨o, ho, he⟩ := List.mem_filterMap.mp this
        refine ⟨own, List.mem_append_left _ ?_⟩
        split at he
        · cases he; exact ho
        · cases he
      · exact .inl h3
    cases q with
    | legacyAdv q =>
      obtain ⟨u, v, hu, hv, rfl⟩ := receive_legacyAdv hy
      have hp : mapFind u.1.pending a ≠ none := by
        rcases connectLegacy_frame hv with ⟨l', rfl⟩ | ⟨l', own, -, -, -, rfl⟩ <;> exact hp
      rcases scanLegacy_requests hu with ⟨-, h1, -⟩ | ⟨-, -, -, -, ⟨req, h1⟩, own, -, h2⟩
      · rw [h1] at hp; exact .inl hp
      · exact fin h1 h2 hp
    | extAdv q =>
      obtain ⟨u, v, hu, hv, rfl⟩ := receive_extAdv hy
      have hp : mapFind u.1.pending a ≠ none := by
        rcases connectExtended_frame hv with ⟨l', rfl⟩ | ⟨l', own, -, -, -, rfl⟩ <;> exact hp
      rcases scanExtended_requests hu with ⟨-, h1, -⟩ | ⟨-, -, -, -, ⟨req, h1⟩, own, -, h2⟩
      · rw [h1] at hp; exact .inl hp
      · exact fin h1 h2 hp
    | periodic q =>
      simp only [receive, periodicPdu] at hy
      repeat' split at hy
      all_goals first | (cases hy; exact .inl hp) | cases hy
    | connect init adv q =>
      simp only [receive, incomingConnect] at hy
      obtain ⟨⟨b, s1, o1⟩, hl, hx⟩ := Res.bind_eq_ok hy
      rcases legacyConnect_cases hl with ⟨hb, ho, ⟨r, hs⟩, -⟩ | ⟨hb, -, -, -, -, z, hz, hx'⟩
      · simp only at hb ho hs
        subst hb ho hs
        simp only [Bool.false_eq_true, if_false] at hx
        rcases extConnectAll_cases _ hx with ⟨g1, ⟨r', g2⟩, -⟩ | ⟨k, a, s2, -, -, ⟨⟨r', hs2⟩, -⟩, z, hz, rfl⟩
        · rw [g2] at hp; exact .inl hp
        · obtain ⟨last, -, -, -, -, -, -, -, h5, -⟩ := handleConnection_cases hz
          simp only [h5, hs2] at hp; exact .inl hp
      · simp only at hb hx'
        subst hb
        simp only [if_true] at hx
        cases hx
        cases hx'
        obtain ⟨last, -, -, -, -, -, -, -, h5, -⟩ := handleConnection_cases hz
        simp only [h5] at hp; exact .inl hp
    | connectComplete init adv q =>
      simp only [receive, incomingConnectComplete] at hy
      split at hy
      · cases hy; exact .inl hp
      obtain ⟨z, hz, hx⟩ := Res.bind_eq_ok hy
      cases hx
      obtain ⟨last, -, -, -, -, -, -, -, h5, -⟩ := handleConnection_cases hz
      simp only [h5] at hp; exact .inl hp
    | scan sc adv => cases hy; exact .inl hp
    | scanResponse adv b d =>
      cases hy
      simp only [scanResponse] at hp
      split at hp
      · exact .inl hp
      split at hp
      · exact .inl hp
      · obtain ⟨hi, hh⟩ := remember_frame { s with le := resolveUpdate ah s.le adv, pending := mapErase s.pending adv } (.scanResponse adv b d)
        simp only [hh, mapFind_mapErase] at hp
        split at hp
        · exact absurd rfl hp
        · exact .inl hp
    | link src dst b =>
      simp only [receive, incomingLink] at hy
      split at hy
      · cases hy; exact .inl hp
      split at hy
      · cases hy; exact .inl hp
      · split at hy
        · cases hy
        · rename_i hr
          obtain ⟨h0, rfl⟩ := removeConnection_cases hr
          cases hy
          exact .inl hp
      · cases hy; exact .inl hp
  | tick now =>
    simp only [step] at h
    obtain ⟨y, hy, h⟩ := Res.bind_eq_ok h
    cases h
    simp only [tick] at hy
    split at hy
    · cases hy
    · cases hy
      left
      simp only [scanTimers] at hp
      split at hp
      · exact hp
      · simp only at hp
        split at hp
        · exact absurd rfl hp
        · intro hn; exact hp (filter_find hn)
  | sendAcl a b c d =>
    simp only [step, handleAcl] at h
    obtain ⟨y, hy, h⟩ := Res.bind_eq_ok h
    cases h
    split at hy
    · cases hy
    split at hy <;> (cases hy; exact .inl hp)
  | disconnect a b c =>
    simp only [step, disconnect] at h
    obtain ⟨y, hy, h⟩ := Res.bind_eq_ok h
    cases h
    split at hy
    · cases hy; exact .inl hp
    split at hy
    · cases hy
    · rename_i hr
      obtain ⟨-, rfl⟩ := removeConnection_cases hr
      cases hy
      exact .inl hp
  | reset => cases h; exact absurd rfl hp

/-- While scanning, the own address that was chosen is available. -/
theorem scanner_address {ah : Hash} {cfg : Config} {s : State} (h : Reachable ah cfg s) :
    s.le.scanner.enable = true → scanAddressMissing s.le = false := by
  refine h.induct (P := fun s => s.le.scanner.enable = true → scanAddressMissing s.le = false) ?_ ?_
  · intro a he; cases a <;> cases he
  · intro s o x _ hs hx
    have keep : x.1.le.scanner = s.le.scanner → x.1.le.randomAddress = s.le.randomAddress →
        x.1.le.scanner.enable = true → scanAddressMissing x.1.le = false := by
      intro h1 h2 he
      unfold scanAddressMissing
      rw [h1, h2]
      rw [h1] at he
      exact hs he
    cases o with
    | cmd c =>
      simp only [step] at hx
      obtain ⟨y, hy, hx⟩ := Res.bind_eq_ok hx
      cases hx
      have hr : ∃ e, runCmd cfg s.le c = .ret y.1.le e := by
        simp only [command] at hy
        split at hy
        · cases hy
        · rename_i le e hr
          split at hy <;> (cases hy; exact ⟨e, hr⟩)
      obtain ⟨e, hr⟩ := hr
      by_cases hsc : StartsScan (.cmd c)
      · cases c <;> try exact hsc.elim
        case setScanEnable en fd =>
          have hen : en = true := hsc
          subst hen
          obtain ⟨hq, -⟩ := runCmd_ret_of hr
          simp only [setScanEnable, withLegacy, checked, checkedThen] at hq
          split at hq
          · exact keep (by simp only [hq]) (by simp only [hq])
          · simp only [Bool.true_eq_false, if_false] at hq
            split at hq
            · rename_i hf
              rw [firstError_iff (by simp)] at hf
              have := hf _ (List.mem_cons_self ..)
              intro _
              simp only [hq]; exact this
            · exact keep (by simp only [hq]) (by simp only [hq])
        case setExtendedScanEnable n en fd d pr =>
          have hen : en = true := hsc
          subst hen
          obtain ⟨hq, -⟩ := runCmd_ret_of hr
          simp only [setExtendedScanEnable, withExtended, checked, checkedThen] at hq
          generalize (if d = 0 then 0 else pr) = pr' at hq
          split at hq
          · exact keep (by simp only [hq]) (by simp only [hq])
          · simp only [Bool.true_eq_false, if_false] at hq
            split at hq
            · rename_i hf
              rw [firstError_iff (by simp)] at hf
              have := hf _ (List.mem_cons_of_mem _ (List.mem_cons_of_mem _ (List.mem_cons_self ..)))
              intro _
              simp only [hq]; exact this
            · exact keep (by simp only [hq]) (by simp only [hq])
      · rcases command_scan hy hsc with h1 | ⟨h1, -⟩
        · intro he; simp only at he; rw [h1] at he; cases he
        · by_cases hra : ∃ a, c = .setRandomAddress a
          · obtain ⟨a, rfl⟩ := hra
            obtain ⟨hq, -⟩ := runCmd_ret_of hr
            simp only [setRandomAddress, checked, checkedThen] at hq
            split at hq
            · rename_i hf
              rw [firstError_iff (by simp)] at hf
              intro he
              simp only [h1] at he
              have := hf _ (List.mem_cons_self ..)
              simp only [Bool.or_eq_false_iff] at this
              rw [he] at this
              cases this.1.2
            · exact keep h1 (by simp only [hq])
          · refine keep h1 ?_
            simp only
            cases c
            case setRandomAddress a => exact absurd ⟨a, rfl⟩ hra
            case setExtAdvertisingEnable =>
              obtain ⟨m, r, x, hq⟩ := extEnable_frame (runCmd_extEnable hr); rw [hq]
            all_goals
              obtain ⟨hq, -⟩ := runCmd_ret_of hr
              rw [hq]
              unfold_handlers
              repeat' split
              all_goals first | rfl | (simp_all; done)
    | receive rnd now q =>
      simp only [step] at hx
      obtain ⟨y, hy, hx⟩ := Res.bind_eq_ok hx
      cases hx
      exact keep (receive_scanner hy).1 (receive_scanner hy).2
    | tick now =>
      simp only [step] at hx
      obtain ⟨y, hy, hx⟩ := Res.bind_eq_ok hx
      cases hx
      simp only [tick] at hy
      split at hy
      · cases hy
      · rename_i le out ha
        cases hy
        have hsc : le.scanner = s.le.scanner ∧ le.randomAddress = s.le.randomAddress := by
          simp only [advertising] at ha
          split at ha
          · cases ha
          · cases ha; exact ⟨rfl, rfl⟩
        intro he
        have hen : s.le.scanner.enable = true := by
          by_contra hc
          have hc : s.le.scanner.enable = false := by simpa using hc
          simp only [scanning, hsc.1, hc, if_true] at he
          cases he
        have := hs hen
        have ho : (scanning now le).1.scanner.ownAddressType = s.le.scanner.ownAddressType ∧
            (scanning now le).1.randomAddress = s.le.randomAddress := by
          rw [← hsc.1, ← hsc.2]
          unfold scanning
          split
          · exact ⟨rfl, rfl⟩
          · simp only
            refine ⟨?_, trivial⟩
            repeat' split
            all_goals rfl
        unfold scanAddressMissing at this ⊢
        simp only [ho.1, ho.2]
        exact this
    | sendAcl a b c d =>
      simp only [step, handleAcl] at hx
      obtain ⟨y, hy, hx⟩ := Res.bind_eq_ok hx
      cases hx
      split at hy
      · cases hy
      split at hy <;> (cases hy; exact hs)
    | disconnect a b c =>
      simp only [step, disconnect] at hx
      obtain ⟨y, hy, hx⟩ := Res.bind_eq_ok hx
      cases hx
      split at hy
      · cases hy; exact hs
      split at hy
      · cases hy
      · rename_i hr
        obtain ⟨-, rfl⟩ := removeConnection_cases hr
        cases hy
        exact hs
    | reset => cases hx; intro he; cases he

end Verif.Ll
