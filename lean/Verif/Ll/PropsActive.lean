import Verif.Ll.ActiveLemmas
import Verif.Ll.PropsScan
/-!
# C51: active scanning, C52: scan responses
-/

namespace Verif.Ll
open Verif.Le

/-! ### C51 -/

/-- A scan request is sent for an extended advertising PDU exactly if the PDU is
scannable, is reported to the host, the scanner is active, and no request to the
advertiser is pending. At most one is sent, to the advertiser, from the address the host
chose. -/
theorem C51_extended {ah : Hash} {cfg : Config} {rnd : Irk → Address} {now : Nat} {s s' : State}
    {p : ExtPdu} {o : Obs} (h : step ah cfg s (.receive rnd now (.extAdv p)) = .ok (s', o)) :
    (scanRequestsOf o.out ≠ [] ↔
      p.scannable = true ∧ Reported o.out ∧ ActiveScan s.le ∧ mapFind s.pending p.adv = none) ∧
    (scanRequestsOf o.out).length ≤ 1 ∧
    ∀ own adv, (own, adv) ∈ scanRequestsOf o.out →
      adv = p.adv ∧ ∃ r, Identity ah s.le p.adv r ∧ OwnFor cfg s.le rnd r s.le.scanner.ownAddressType own := by
  rw [C49_extended h]
  simp only [step] at h
  obtain ⟨x, hx, h⟩ := Res.bind_eq_ok h
  cases h
  rw [← phyAccepts_iff, ← allowed_iff, ← notDuplicate_iff]
  obtain ⟨u, v, hu, hv, rfl⟩ := receive_extAdv hx
  have hv : scanRequestsOf v.2 = [] := by
    rcases connectExtended_frame hv with ⟨l', rfl⟩ | ⟨l', own, -, -, -, rfl⟩ <;> rfl
  simp only [scanRequestsOf_append, hv, List.append_nil]
  rcases scanExtended_requests hu with ⟨h1, -, h2⟩ | ⟨h1, h2, h3, h4, -, own, h5, h6⟩
  · rw [h1]
    refine ⟨⟨fun hc => absurd rfl hc, fun hc => absurd ?_ h2⟩, by simp, fun _ _ hm => (by cases hm)⟩
    simp only [reportsExtended, Bool.and_eq_true]
    tauto
  · rw [h6]
    refine ⟨⟨fun _ => ?_, fun _ => by simp⟩, by simp, ?_⟩
    · simp only [reportsExtended, Bool.and_eq_true] at h1
      tauto
    · intro o a hm
      simp only [List.mem_singleton, Prod.mk.injEq] at hm
      obtain ⟨rfl, rfl⟩ := hm
      exact ⟨rfl, _, (identity_iff ah s.le p.adv _).mp rfl, h5⟩

/-- The same for legacy advertising PDUs. -/
theorem C51_legacy {ah : Hash} {cfg : Config} {rnd : Irk → Address} {now : Nat} {s s' : State}
    {p : LegacyPdu} {o : Obs} (h : step ah cfg s (.receive rnd now (.legacyAdv p)) = .ok (s', o))
    (hm : s.le.legacyInUse = true ∨ s.le.extendedInUse = true) :
    (scanRequestsOf o.out ≠ [] ↔
      p.type.scannable = true ∧ Reported o.out ∧ ActiveScan s.le ∧ mapFind s.pending p.adv = none) ∧
    (scanRequestsOf o.out).length ≤ 1 ∧
    ∀ own adv, (own, adv) ∈ scanRequestsOf o.out →
      adv = p.adv ∧ ∃ r, Identity ah s.le p.adv r ∧ OwnFor cfg s.le rnd r s.le.scanner.ownAddressType own := by
  rw [C49_legacy h]
  simp only [step] at h
  obtain ⟨x, hx, h⟩ := Res.bind_eq_ok h
  cases h
  rw [← allowed_iff, ← notDuplicate_iff]
  obtain ⟨u, v, hu, hv, rfl⟩ := receive_legacyAdv hx
  have hv : scanRequestsOf v.2 = [] := by
    rcases connectLegacy_frame hv with ⟨l', rfl⟩ | ⟨l', own, -, -, -, rfl⟩ <;> rfl
  simp only [scanRequestsOf_append, hv, List.append_nil]
  rcases scanLegacy_requests hu with ⟨h1, -, h2⟩ | ⟨h1, h2, h3, h4, -, own, h5, h6⟩
  · rw [h1]
    refine ⟨⟨fun hc => absurd rfl hc, fun hc => absurd ?_ h2⟩, by simp, fun _ _ hm => (by cases hm)⟩
    simp only [reportsLegacy, Bool.and_eq_true]
    tauto
  · rw [h6]
    refine ⟨⟨fun _ => ?_, fun _ => by simp⟩, by simp, ?_⟩
    · simp only [reportsLegacy, Bool.and_eq_true] at h1
      tauto
    · intro o a hm
      simp only [List.mem_singleton, Prod.mk.injEq] at hm
      obtain ⟨rfl, rfl⟩ := hm
      exact ⟨rfl, _, (identity_iff ah s.le p.adv _).mp rfl, h5⟩

theorem ownAddress_isSome {cfg : Config} {s : Le.State} {r : Option AddressWithType}
    (h : scanAddressMissing s = false) : ∃ own, ownAddress cfg s s.scanner.ownAddressType r = some own := by
  unfold scanAddressMissing at h
  unfold ownAddress
  cases ht : s.scanner.ownAddressType <;> rw [ht] at h <;> first | exact ⟨_, rfl⟩ | skip
  all_goals
    have hz : ¬ s.randomAddress = 0 := by simpa using h
    simp only [if_neg hz]
    exact ⟨_, rfl⟩

/-- No advertising PDU makes a scanning controller fail: the address the host chose for
scan requests is there whenever scanning is on. (With an initiator it can fail, see
`C53_no_address_violated`.) -/
theorem C51_total {ah : Hash} {cfg : Config} {s : State} (hr : Reachable ah cfg s)
    (hi : s.le.initiator.enable = false) (rnd : Irk → Address) (now : Nat) (p : Packet)
    (hp : (∃ q, p = .legacyAdv q) ∨ ∃ q, p = .extAdv q) :
    ∃ x, step ah cfg s (.receive rnd now p) = .ok x := by
  have hreq : s.le.scanner.enable = true → ∀ (a adv r : AddressWithType) (q : Packet) (sc fr : Bool) (req : ScanRequest),
      ∃ x, scanRequest cfg rnd (remember { s with le := resolveUpdate ah s.le a } q) adv r sc fr req = .ok x := by
    intro he a adv r q sc fr req
    have hm := scanner_address hr he
    obtain ⟨l, hl⟩ := resolveUpdate_frame ah s.le a
    obtain ⟨hi', hh⟩ := remember_frame { s with le := resolveUpdate ah s.le a } q
    rw [hh]
    unfold scanRequest
    repeat' (split; exact ⟨_, rfl⟩)
    have hm' : scanAddressMissing (resolveUpdate ah s.le a) = false := by
      rw [hl]; exact hm
    obtain ⟨own, ho⟩ := ownAddress_isSome (cfg := cfg) (r := (generateRpa rnd r .loc (resolveUpdate ah s.le a).resolvingList).2) hm'
    simp only [ho]
    exact ⟨_, rfl⟩
  rcases hp with ⟨q, rfl⟩ | ⟨q, rfl⟩
  · have hs : ∃ x, scanLegacy ah cfg rnd now s q = .ok x ∧ x.1.le.initiator.enable = false := by
      have : ∃ x, scanLegacy ah cfg rnd now s q = .ok x := by
        simp only [scanLegacy]
        split
        · exact ⟨_, rfl⟩
        · rename_i he
          split
          · exact ⟨_, rfl⟩
          · obtain ⟨x, hx⟩ := hreq (by simpa using he) q.adv q.adv (resolved ah s.le q.adv) (.legacyAdv q) q.type.scannable
              (notDuplicate { s with le := resolveUpdate ah s.le q.adv } (.legacyAdv q)) ⟨q.type.connectable, false, .le1m, .noPackets, now + scanRequestTimeout⟩
            rw [hx]
            exact ⟨_, rfl⟩
      obtain ⟨x, hx⟩ := this
      obtain ⟨l, h1, h2, hf⟩ := scanLegacy_frame hx
      exact ⟨x, hx, by rw [hf]; exact hi⟩
    obtain ⟨x, hx, he⟩ := hs
    simp only [step, receive, hx, Res.bind, connectLegacy, he, if_true]
    exact ⟨_, rfl⟩
  · have hs : ∃ x, scanExtended ah cfg rnd now s q = .ok x ∧ x.1.le.initiator.enable = false := by
      have : ∃ x, scanExtended ah cfg rnd now s q = .ok x := by
        simp only [scanExtended]
        split
        · exact ⟨_, rfl⟩
        · rename_i he
          repeat' (split; exact ⟨_, rfl⟩)
          · obtain ⟨x, hx⟩ := hreq (by simpa using he) q.adv q.adv (resolved ah s.le q.adv) (.extAdv q) q.scannable
              (notDuplicate { s with le := resolveUpdate ah s.le q.adv } (.extAdv q)) ⟨q.connectable, true, q.primary, q.secondary, now + scanRequestTimeout⟩
            rw [hx]
            exact ⟨_, rfl⟩
      obtain ⟨x, hx⟩ := this
      obtain ⟨l, h1, h2, hf⟩ := scanExtended_frame hx
      exact ⟨x, hx, by rw [hf]; exact hi⟩
    obtain ⟨x, hx, he⟩ := hs
    simp only [step, receive, hx, Res.bind, connectExtended, he, if_true]
    exact ⟨_, rfl⟩

/-! ### C52 -/

/-- The number of scan requests sent to the advertiser. -/
def requestsTo (a : AddressWithType) (obs : List Obs) : Nat :=
  (obs.flatMap (fun o => (scanRequestsOf o.out).filter (fun r => r.2 = a))).length

/-- The step reports a scan response of the advertiser. -/
def isResponse (a : AddressWithType) (o : Op) (b : Obs) : Bool :=
  (match o with | .receive _ _ (.scanResponse adv _ _) => decide (adv = a) | _ => false) && !b.out.isEmpty

/-- The number of scan responses of the advertiser that were reported. -/
def responsesFrom (a : AddressWithType) (ops : List Op) (obs : List Obs) : Nat :=
  ((ops.zip obs).filter (fun e => isResponse a e.1 e.2)).length

theorem step_balance {ah : Hash} {cfg : Config} {s : State} {o : Op} {x : State × Obs}
    (h : step ah cfg s o = .ok x) (a : AddressWithType) :
    (if isResponse a o x.2 then 1 else 0) + (if mapFind x.1.pending a ≠ none then 1 else 0) ≤
      ((scanRequestsOf x.2.out).filter (fun r => r.2 = a)).length + (if mapFind s.pending a ≠ none then 1 else 0) := by
  by_cases hr : isResponse a o x.2 = true
  · have hc : mapFind s.pending a ≠ none ∧ mapFind x.1.pending a = none := by
      unfold isResponse at hr
      simp only [Bool.and_eq_true, Bool.not_eq_true'] at hr
      obtain ⟨h1, h2⟩ := hr
      split at h1
      · rename_i rnd now adv sc d
        have h1 : adv = a := by simpa using h1
        subst h1
        simp only [step, receive, Res.bind] at h
        cases h
        simp only [scanResponse] at h2 ⊢
        split at h2
        · cases h2
        split at h2
        · cases h2
        · rename_i h3 _ req hq
          simp only [if_neg h3, hq]
          obtain ⟨hi, hh⟩ := remember_frame { s with le := resolveUpdate ah s.le adv, pending := mapErase s.pending adv } (.scanResponse adv sc d)
          refine ⟨by rw [ne_eq]; simp, ?_⟩
          rw [hh]
          simp only [mapFind_mapErase, if_true]
      · cases h1
    rw [if_pos hr, if_neg (by simp [hc.2]), if_pos hc.1]
    omega
  · rw [if_neg hr]
    by_cases hp : mapFind x.1.pending a ≠ none
    · rw [if_pos hp]
      rcases step_pending h hp with h1 | ⟨own, h1⟩
      · rw [if_pos h1]; omega
      · have : (own, a) ∈ (scanRequestsOf x.2.out).filter (fun r => r.2 = a) :=
          List.mem_filter.mpr ⟨List.mem_filterMap.mpr ⟨_, h1, rfl⟩, by simp⟩
        have := List.length_pos_of_mem this
        omega
    · rw [if_neg hp]; omega

/-- Over any history, an advertiser has no more scan responses reported than scan
requests were sent to it: each request yields at most one. -/
theorem C52_bounded {ah : Hash} {cfg : Config} (adv : AddressWithType) (a : Option Address)
    (ops : List Op) (s : State) (obs : List Obs) (h : run ah cfg ops (initial a) = .ok (s, obs)) :
    responsesFrom adv ops obs ≤ requestsTo adv obs := by
  have key : ∀ (ops : List Op) (s : State) (y : State × List Obs), run ah cfg ops s = .ok y →
      responsesFrom adv ops y.2 + (if mapFind y.1.pending adv ≠ none then 1 else 0) ≤
        requestsTo adv y.2 + (if mapFind s.pending adv ≠ none then 1 else 0) := by
    intro ops
    induction ops with
    | nil => intro s y h; cases h; simp [responsesFrom, requestsTo]
    | cons o ops ih =>
      intro s y h
      simp only [run] at h
      obtain ⟨x, hx, h⟩ := Res.bind_eq_ok h
      obtain ⟨z, hz, h⟩ := Res.bind_eq_ok h
      cases h
      have h1 := ih x.1 z hz
      have h2 := step_balance hx adv
      have h3 : responsesFrom adv (o :: ops) (x.2 :: z.2) =
          (if isResponse adv o x.2 then 1 else 0) + responsesFrom adv ops z.2 := by
        simp only [responsesFrom, List.zip_cons_cons, List.filter_cons]
        split
        · rw [List.length_cons]; omega
        · omega
      have h4 : requestsTo adv (x.2 :: z.2) =
          ((scanRequestsOf x.2.out).filter (fun r => r.2 = adv)).length + requestsTo adv z.2 := by
        simp only [requestsTo, List.flatMap_cons, List.length_append]
      simp only [h3, h4]
      omega
  have := key ops (initial a) _ h
  have hp : mapFind (initial a).pending adv = none := by
    cases a <;> rfl
  simp only [hp, ne_eq, not_true_eq_false, if_false] at this
  omega

/-- A scan response is reported exactly if the scanner is on, uses one of the two sets
of commands, waits for a response of the advertiser, and the response is not a duplicate
the host asked not to see.

The property also asks that the response is for this scanner: that part is missing, see
`C52_other_scanner_violated`. -/
theorem C52_response_partial {ah : Hash} {cfg : Config} {rnd : Irk → Address} {now : Nat} {s s' : State}
    {adv : AddressWithType} {sc : Address} {d : List UInt8} {o : Obs}
    (h : step ah cfg s (.receive rnd now (.scanResponse adv sc d)) = .ok (s', o)) :
    o.out ≠ [] ↔
      s.le.scanner.enable = true ∧ (s.le.legacyInUse = true ∨ s.le.extendedInUse = true) ∧
      mapFind s.pending adv ≠ none ∧ ¬ Suppressed s (.scanResponse adv sc d) := by
  rw [← notDuplicate_iff]
  simp only [step, receive, Res.bind] at h
  cases h
  obtain ⟨l, hl⟩ := resolveUpdate_frame ah s.le adv
  simp only [scanResponse]
  split
  · rename_i he; simp [he]
  rename_i he
  split
  · rename_i hn; simp [hn]
  rename_i req hq
  have hd : notDuplicate { s with le := resolveUpdate ah s.le adv, pending := mapErase s.pending adv } (.scanResponse adv sc d) =
      notDuplicate s (.scanResponse adv sc d) := by rw [hl]; rfl
  simp only [hd]
  have h2 : (resolveUpdate ah s.le adv).legacyInUse = s.le.legacyInUse := by rw [hl]
  have h3 : (resolveUpdate ah s.le adv).extendedInUse = s.le.extendedInUse := by rw [hl]
  have he : s.le.scanner.enable = true := by simpa using he
  simp only [he, hq, true_and, ne_eq, reduceCtorEq, not_false_eq_true]
  by_cases hn : notDuplicate s (.scanResponse adv sc d) = true
  · simp only [hn, if_true, responseReports, h2, h3, and_true]
    have := fragments_ne_nil maxExtFragment d
    cases s.le.legacyInUse <;> cases s.le.extendedInUse <;> simp [this]
  · simp [hn]

/-- A scanner that is active. -/
def activeScan : List Op :=
  [.cmd (.setScanParameters .active 0x10 0x10 .pub .acceptAll),
   .cmd (.setScanEnable true false)]

/-- An advertiser. -/
def scannablePdu : LegacyPdu := ⟨advertiserA', ⟨0, .publicDevice⟩, .advScanInd, [1]⟩
where advertiserA' : AddressWithType := ⟨0xA, .publicDevice⟩

/-- What is seen in a run. -/
def outputs (ops : List Op) : List (List Out) :=
  match run (fun _ _ => 0) Config.default ops (initial none) with
  | .ok (_, obs) => obs.map (·.out)
  | _ => []

/-- An active scanner reports the PDU, sends a request, and reports one response; with
another PDU, before the response, no second request is sent. -/
example : outputs (activeScan ++ [.receive (fun _ => 0) 0 (.legacyAdv scannablePdu),
      .receive (fun _ => 0) 0 (.legacyAdv scannablePdu),
      .receive (fun _ => 0) 0 (.scanResponse ⟨0xA, .publicDevice⟩ Config.default.publicAddress [2]),
      .receive (fun _ => 0) 0 (.scanResponse ⟨0xA, .publicDevice⟩ Config.default.publicAddress [2])]) =
    [[], [], [.legacyReport (.pdu .advScanInd) ⟨0xA, .publicDevice⟩ [1],
        .send (.scan ⟨Config.default.publicAddress, .publicDevice⟩ ⟨0xA, .publicDevice⟩)],
      [.legacyReport (.pdu .advScanInd) ⟨0xA, .publicDevice⟩ [1]],
      [.legacyReport .scanResponse ⟨0xA, .publicDevice⟩ [2]], []] := by decide +kernel

/-- **Counterexample.** The response of an advertiser to another scanner is reported. -/
theorem C52_other_scanner_violated :
    Config.default.publicAddress ≠ 0xC ∧
    outputs (activeScan ++ [.receive (fun _ => 0) 0 (.legacyAdv scannablePdu),
      .receive (fun _ => 0) 0 (.scanResponse ⟨0xA, .publicDevice⟩ 0xC [2])]) =
    [[], [], [.legacyReport (.pdu .advScanInd) ⟨0xA, .publicDevice⟩ [1],
        .send (.scan ⟨Config.default.publicAddress, .publicDevice⟩ ⟨0xA, .publicDevice⟩)],
      [.legacyReport .scanResponse ⟨0xA, .publicDevice⟩ [2]]] := by
  decide +kernel

/-- With duplicate filtering (C50) the second of two equal PDUs is not reported, nor is
a PDU that the filter policy (C49) keeps out. -/
example : outputs [.cmd (.setScanParameters .passive 0x10 0x10 .pub .filterAcceptListOnly),
      .cmd (.addFilterAccept .pub 0xA), .cmd (.setScanEnable true true),
      .receive (fun _ => 0) 0 (.legacyAdv scannablePdu), .receive (fun _ => 0) 0 (.legacyAdv scannablePdu),
      .receive (fun _ => 0) 0 (.legacyAdv { scannablePdu with adv := ⟨0xB, .publicDevice⟩ })] =
    [[], [], [], [.legacyReport (.pdu .advScanInd) ⟨0xA, .publicDevice⟩ [1]], [], []] := by decide +kernel

end Verif.Ll
