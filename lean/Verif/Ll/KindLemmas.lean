import Verif.Ll.SpecKind
import Verif.Ll.PropsActive
/-! # Lemmas for C120 -/
namespace Verif.Ll
open Verif.Le

theorem directedReportsOf_append (a b : List Out) : directedReportsOf (a ++ b) = directedReportsOf a ++ directedReportsOf b := by
  simp [directedReportsOf]

theorem nature_eq (t : PduType) : nature t = (t.connectable, t.scannable, t.directed) := by cases t <;> rfl

theorem wantsDirected_iff (ah : Hash) (s : Le.State) (r : AddressWithType) (p : LegacyPdu) :
    wantsDirectedReport ah s p.type.directed r p.target = true ↔ Unresolved ah s r p := by
  have hd : p.type.directed = true ↔ p.type = .advDirectInd := by cases p.type <;> decide
  unfold wantsDirectedReport Unresolved
  rw [← isRpa_form, ← resolveTarget_iff, ← hd]
  cases s.scanner.filterPolicy <;> simp [and_assoc]

theorem legacyExt_eq (p : LegacyPdu) (r : AddressWithType) : legacyExtReport p r = legacyAsExtended p r := by
  unfold legacyExtReport legacyAsExtended
  rw [nature_eq]
  obtain ⟨a, b, t, d⟩ := p
  cases t <;> rfl

/-- What is pending for a device fits to the PDU. -/
def Fits' (m : Option Answered) (a : AddressWithType) (req : ScanRequest) : Prop :=
  m = some ⟨a, req.connectable, !req.extended, req.primary, req.secondary⟩

theorem asks_iff {a : AddressWithType} {out : List Out} : asks a out = true ↔ ∃ own, (own, a) ∈ scanRequestsOf out := by
  unfold asks scanRequestsOf
  rw [List.any_eq_true]
  constructor
  · rintro ⟨o, ho, h⟩
    split at h
    · rename_i own b
      refine ⟨own, List.mem_filterMap.mpr ⟨_, ho, ?_⟩⟩
      simp only [decide_eq_true_eq] at h
      rw [h]
    · cases h
  · rintro ⟨own, h⟩
    obtain ⟨o, ho, h⟩ := List.mem_filterMap.mp h
    refine ⟨o, ho, ?_⟩
    split at h
    · cases h; simp
    · cases h

theorem mem_mapSet {m : List (AddressWithType × ScanRequest)} {b : AddressWithType} {q : ScanRequest} {e : AddressWithType × ScanRequest}
    (h : e ∈ mapSet m b q) : e = (b, q) ∨ e ∈ m := by
  induction m with
  | nil => exact .inl (List.mem_singleton.1 h)
  | cons x m ih =>
    obtain ⟨k, y⟩ := x
    unfold mapSet at h
    split at h
    · rename_i hk
      rcases List.mem_cons.1 h with h | h
      · exact .inl (hk ▸ h)
      · exact .inr (List.mem_cons_of_mem _ h)
    · rcases List.mem_cons.1 h with h | h
      · exact .inr (h ▸ List.mem_cons_self)
      · rcases ih h with h | h
        · exact .inl h
        · exact .inr (List.mem_cons_of_mem _ h)

theorem mem_mapErase {m : List (AddressWithType × ScanRequest)} {b : AddressWithType} {e : AddressWithType × ScanRequest} (h : e ∈ mapErase m b) : e ∈ m :=
  (List.mem_filter.1 h).1

theorem mem_mapFind {m : List (AddressWithType × ScanRequest)} {a : AddressWithType} {q : ScanRequest} (h : mapFind m a = some q) : (a, q) ∈ m := by
  induction m with
  | nil => cases h
  | cons x m ih =>
    obtain ⟨k, y⟩ := x
    rw [mapFind_cons] at h
    split at h
    · rename_i hk
      cases h
      exact hk ▸ List.mem_cons_self
    · exact List.mem_cons_of_mem _ (ih h)

theorem mapSet_pending {m : List (AddressWithType × ScanRequest)} {b a : AddressWithType} {q req : ScanRequest} (hn : mapFind m b = none)
    (h : (a, req) ∈ mapSet m b q) : (b = a ∧ q = req) ∨ (b ≠ a ∧ (a, req) ∈ m) := by
  rw [Le.mapFind_none] at hn
  rcases mem_mapSet h with h | h
  · cases h; exact .inl ⟨rfl, rfl⟩
  · exact .inr ⟨fun he => hn (List.mem_map.mpr ⟨(a, req), h, he.symm⟩), h⟩

/-- What is pending after a step was, or is because of the PDU that arrived. -/
theorem step_req {ah : Hash} {cfg : Config} {s : State} {o : Op} {x : State × Obs} (h : step ah cfg s o = .ok x) {a : AddressWithType}
    {req : ScanRequest} (hp : (a, req) ∈ x.1.pending) :
    ((a, req) ∈ s.pending ∧ ∀ rnd now q, o = .receive rnd now q → answered q = none ∨ asks a x.2.out = false) ∨
    ∃ rnd now q, o = .receive rnd now q ∧ asks a x.2.out = true ∧ Fits' (answered q) a req := by
  cases o with
  | cmd c =>
    simp only [step] at h
    obtain ⟨y, hy, h⟩ := Res.bind_eq_ok h
    cases h
    simp only [command] at hy
    split at hy
    · cases hy
    · split at hy
      · cases hy; cases hp
      · cases hy; exact .inl ⟨hp, fun _ _ _ h => Op.noConfusion h⟩
  | receive rnd now q =>
    simp only [step] at h
    obtain ⟨y, hy, h⟩ := Res.bind_eq_ok h
    cases h
    have same : answered q = none → (a, req) ∈ s.pending → ((a, req) ∈ s.pending ∧ ∀ rnd' now' q', Op.receive rnd now q = .receive rnd' now' q' →
        answered q' = none ∨ asks a y.2 = false) ∨ ∃ rnd' now' q', Op.receive rnd now q = .receive rnd' now' q' ∧ asks a y.2 = true ∧ Fits' (answered q') a req :=
      fun h1 h2 => .inl ⟨h2, by rintro _ _ _ ⟨⟩; exact .inl h1⟩
    have fin : ∀ {adv : AddressWithType} {out tail : List Out} {own : AddressWithType} {r : ScanRequest} {pend : List (AddressWithType × ScanRequest)},
        pend = mapSet s.pending adv r → scanRequestsOf out = [(own, adv)] → scanRequestsOf tail = [] → mapFind s.pending adv = none → (a, req) ∈ pend →
        answered q = some ⟨adv, r.connectable, !r.extended, r.primary, r.secondary⟩ →
        ((a, req) ∈ s.pending ∧ ∀ rnd' now' q', Op.receive rnd now q = .receive rnd' now' q' →
        answered q' = none ∨ asks a (out ++ tail) = false) ∨ ∃ rnd' now' q', Op.receive rnd now q = .receive rnd' now' q' ∧ asks a (out ++ tail) = true ∧ Fits' (answered q') a req := by
      intro adv out tail own r pend h1 h2 h3 hn h4 h5
      subst h1
      rcases mapSet_pending hn h4 with ⟨rfl, rfl⟩ | ⟨hne, h6⟩
      · refine .inr ⟨_, _, _, rfl, ?_, h5⟩
        rw [asks_iff, scanRequestsOf_append, h2, h3]
        exact ⟨own, by simp⟩
      · refine .inl ⟨h6, ?_⟩
        rintro _ _ _ ⟨⟩
        refine .inr (Bool.eq_false_iff.mpr (fun hh => ?_))
        rw [asks_iff, scanRequestsOf_append, h2, h3] at hh
        obtain ⟨own', hh⟩ := hh
        simp only [List.append_nil, List.mem_singleton, Prod.mk.injEq] at hh
        exact hne hh.2.symm
    have none_sent : ∀ {out tail : List Out}, scanRequestsOf out = [] → scanRequestsOf tail = [] → (a, req) ∈ s.pending →
        ((a, req) ∈ s.pending ∧ ∀ rnd' now' q', Op.receive rnd now q = .receive rnd' now' q' →
        answered q' = none ∨ asks a (out ++ tail) = false) ∨ ∃ rnd' now' q', Op.receive rnd now q = .receive rnd' now' q' ∧ asks a (out ++ tail) = true ∧ Fits' (answered q') a req := by
      intro out tail h1 h2 h3
      refine .inl ⟨h3, ?_⟩
      rintro _ _ _ ⟨⟩
      refine .inr (Bool.eq_false_iff.mpr (fun hh => ?_))
      rw [asks_iff, scanRequestsOf_append, h1, h2] at hh
      obtain ⟨_, hh⟩ := hh
      cases hh
    cases q with
    | legacyAdv q =>
      obtain ⟨u, v, hu, hv, rfl⟩ := receive_legacyAdv hy
      have hv' : v.1.pending = u.1.pending ∧ scanRequestsOf v.2 = [] := by
        rcases connectLegacy_frame hv with ⟨l', rfl⟩ | ⟨l', own, -, -, -, rfl⟩ <;> exact ⟨rfl, rfl⟩
      have hp : (a, req) ∈ u.1.pending := hv'.1 ▸ hp
      rcases scanLegacy_requests hu with ⟨h0, h1, -⟩ | ⟨-, hsc, -, hn, ⟨t, h1⟩, own, -, h2⟩
      · exact none_sent h0 hv'.2 (h1 ▸ hp)
      · exact fin h1 h2 hv'.2 hn hp (by simp [answered, nature_eq, hsc])
    | extAdv q =>
      obtain ⟨u, v, hu, hv, rfl⟩ := receive_extAdv hy
      have hv' : v.1.pending = u.1.pending ∧ scanRequestsOf v.2 = [] := by
        rcases connectExtended_frame hv with ⟨l', rfl⟩ | ⟨l', own, -, -, -, rfl⟩ <;> exact ⟨rfl, rfl⟩
      have hp : (a, req) ∈ u.1.pending := hv'.1 ▸ hp
      rcases scanExtended_requests hu with ⟨h0, h1, -⟩ | ⟨-, hsc, -, hn, ⟨t, h1⟩, own, -, h2⟩
      · exact none_sent h0 hv'.2 (h1 ▸ hp)
      · exact fin h1 h2 hv'.2 hn hp (by simp [answered, hsc])
    | periodic q =>
      refine same rfl ?_
      simp only [receive, periodicPdu] at hy
      repeat' split at hy
      all_goals first | (cases hy; exact hp) | cases hy
    | connect init adv q =>
      refine same rfl ?_
      simp only [receive, incomingConnect] at hy
      obtain ⟨⟨b, s1, o1⟩, hl, hx⟩ := Res.bind_eq_ok hy
      rcases legacyConnect_cases hl with ⟨hb, ho, ⟨r, hs⟩, -⟩ | ⟨hb, -, -, -, -, z, hz, hx'⟩
      · simp only at hb ho hs
        subst hb ho hs
        simp only [Bool.false_eq_true, if_false] at hx
        rcases extConnectAll_cases _ hx with ⟨g1, ⟨r', g2⟩, -⟩ | ⟨k, a, s2, -, -, ⟨⟨r', hs2⟩, -⟩, z, hz, rfl⟩
        · rw [g2] at hp; exact hp
        · obtain ⟨last, -, -, -, -, -, -, -, h5, -⟩ := handleConnection_cases hz
          simp only [h5, hs2] at hp; exact hp
      · simp only at hb hx'
        subst hb
        simp only [if_true] at hx
        cases hx
        cases hx'
        obtain ⟨last, -, -, -, -, -, -, -, h5, -⟩ := handleConnection_cases hz
        simp only [h5] at hp; exact hp
    | connectComplete init adv q =>
      refine same rfl ?_
      simp only [receive, incomingConnectComplete] at hy
      split at hy
      · cases hy; exact hp
      obtain ⟨z, hz, hx⟩ := Res.bind_eq_ok hy
      cases hx
      obtain ⟨last, -, -, -, -, -, -, -, h5, -⟩ := handleConnection_cases hz
      simp only [h5] at hp; exact hp
    | scan sc adv => cases hy; exact same rfl hp
    | scanResponse adv b d =>
      refine same rfl ?_
      cases hy
      simp only [scanResponse] at hp
      split at hp
      · exact hp
      split at hp
      · exact hp
      · obtain ⟨hi, hh⟩ := remember_frame { s with le := resolveUpdate ah s.le adv, pending := mapErase s.pending adv } (.scanResponse adv b d)
        simp only [hh] at hp
        exact mem_mapErase hp
    | link src dst b =>
      refine same rfl ?_
      simp only [receive, incomingLink] at hy
      split at hy
      · cases hy; exact hp
      split at hy
      · cases hy; exact hp
      · split at hy
        · cases hy
        · rename_i hr
          obtain ⟨h0, rfl⟩ := removeConnection_cases hr
          cases hy
          exact hp
      · cases hy; exact hp
  | tick now =>
    simp only [step] at h
    obtain ⟨y, hy, h⟩ := Res.bind_eq_ok h
    cases h
    simp only [tick] at hy
    split at hy
    · cases hy
    · cases hy
      refine .inl ⟨?_, fun _ _ _ h => Op.noConfusion h⟩
      simp only [scanTimers] at hp
      split at hp
      · exact hp
      · simp only at hp
        split at hp
        · cases hp
        · exact (List.mem_filter.1 hp).1
  | sendAcl a b c d =>
    simp only [step, handleAcl] at h
    obtain ⟨y, hy, h⟩ := Res.bind_eq_ok h
    cases h
    split at hy
    · cases hy
    split at hy <;> (cases hy; exact .inl ⟨hp, fun _ _ _ h => Op.noConfusion h⟩)
  | disconnect a b c =>
    simp only [step, disconnect] at h
    obtain ⟨y, hy, h⟩ := Res.bind_eq_ok h
    cases h
    split at hy
    · cases hy; exact .inl ⟨hp, fun _ _ _ h => Op.noConfusion h⟩
    split at hy
    · cases hy
    · rename_i hr
      obtain ⟨-, rfl⟩ := removeConnection_cases hr
      cases hy
      exact .inl ⟨hp, fun _ _ _ h => Op.noConfusion h⟩
  | reset =>
    cases h
    cases hp

/-- The same over a history. -/
theorem run_req {ah : Hash} {cfg : Config} (ops : List Op) {s : State} {y : State × List Obs} (h : run ah cfg ops s = .ok y) (m : AddressWithType → Option Answered)
    (hm : ∀ a req, (a, req) ∈ s.pending → Fits' (m a) a req) (a : AddressWithType) (req : ScanRequest) (hp : (a, req) ∈ y.1.pending) :
    Fits' (lastAsked a (m a) (ops.zip y.2)) a req := by
  induction ops generalizing s y m with
  | nil => cases h; exact hm a req hp
  | cons o ops ih =>
    simp only [run] at h
    obtain ⟨x, hx, h⟩ := Res.bind_eq_ok h
    obtain ⟨z, hz, h⟩ := Res.bind_eq_ok h
    cases h
    have key := ih hz (fun b => lastAsked b (m b) [(o, x.2)]) (fun b r hb => ?_) hp
    · rw [List.zip_cons_cons]
      cases o <;> exact key
    · rcases step_req hx hb with ⟨h1, h2⟩ | ⟨rnd, now, q, rfl, h1, h2⟩
      · have h3 := hm b r h1
        cases o with
        | receive rnd now q =>
          simp only [lastAsked]
          rcases h2 rnd now q rfl with h4 | h4
          · rw [h4]; split <;> exact h3
          · rw [h4]; exact h3
        | _ => exact h3
      · simp only [lastAsked, h1, if_true]
        unfold Fits' at h2 ⊢
        rw [h2]; rfl

end Verif.Ll
