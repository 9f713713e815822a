import Verif.Ll.AskPlain
/-!
# Scanning and initiating as the host asked: advertising packets (C109)
-/

namespace Verif.Ll
open Verif.Le

theorem told_append (a b : List Out) : told (a ++ b) = (told a || told b) := by
  simp only [told, List.any_append]

theorem told_legacyReports (ah : Hash) (s : Le.State) (p : LegacyPdu) (r : AddressWithType) :
    told (legacyReports ah s p r) = (s.legacyInUse || s.extendedInUse) := by
  unfold legacyReports
  cases s.legacyInUse <;> cases s.extendedInUse <;> cases wantsDirectedReport ah s p.type.directed r p.target <;> rfl

theorem told_extReports (p : ExtPdu) (r : AddressWithType) : told (extReports p r) = true := by
  unfold extReports
  cases h : fragments maxExtFragment p.data with
  | nil => exact absurd h (by unfold fragments; cases p.data.length <;> exact nofun)
  | cons a l => rfl

/-- What the scanner does with a packet: whether it is reported (and remembered), and
whether a scan request is sent. -/
structure Scanned (cfg : Config) (rnd : Irk → Address) (now : Nat) (s : State) (p : Packet) (adv : AddressWithType) (rep : Bool) (x : State × List Out) : Prop where
  lists : SameLists s.le x.1.le
  call : x.1.le.initiator = s.le.initiator
  history : x.1.history = if rep = true ∧ s.le.scanner.filterDuplicates ≠ .disabled then p :: s.history else s.history
  pending : (scanRequestsOf x.2 = [] ∧ x.1.pending = s.pending) ∨
    ∃ own req, req.timeout = now + 200000 ∧ x.1.pending = mapSet s.pending adv req ∧ scanRequestsOf x.2 = [(own, adv)]
  asks : requestsOf x.2 = []
  back : calledBack x.2 = false

theorem remember_history (s : State) (p : Packet) :
    (remember s p).history = if notDuplicate s p = true ∧ s.le.scanner.filterDuplicates ≠ .disabled then p :: s.history else s.history := by
  unfold remember notDuplicate
  by_cases h : s.le.scanner.filterDuplicates = .disabled
  · simp [h]
  · by_cases h2 : p ∈ s.history <;> simp [h, h2]

theorem requestsOf_append' (a b : List Out) : requestsOf (a ++ b) = requestsOf a ++ requestsOf b := by
  simp only [requestsOf, List.filterMap_append]

theorem calledBack_append (a b : List Out) : calledBack (a ++ b) = (calledBack a || calledBack b) := by
  simp only [calledBack, List.any_append]

theorem quiet_legacyReports (ah : Hash) (s : Le.State) (p : LegacyPdu) (r : AddressWithType) :
    requestsOf (legacyReports ah s p r) = [] ∧ calledBack (legacyReports ah s p r) = false := by
  unfold legacyReports
  cases s.legacyInUse <;> cases s.extendedInUse <;> cases wantsDirectedReport ah s p.type.directed r p.target <;> exact ⟨rfl, rfl⟩

theorem quiet_extReports (p : ExtPdu) (r : AddressWithType) :
    requestsOf (extReports p r) = [] ∧ calledBack (extReports p r) = false := by
  unfold extReports
  induction fragments maxExtFragment p.data with
  | nil => exact ⟨rfl, rfl⟩
  | cons a l ih => exact ih

theorem scanRequest_scanned {cfg : Config} {rnd : Irk → Address} {s : State} {adv r : AddressWithType}
    {sc fr : Bool} {req : ScanRequest} {x : State × List Out} (h : scanRequest cfg rnd s adv r sc fr req = .ok x) :
    SameLists s.le x.1.le ∧ x.1.le.initiator = s.le.initiator ∧ x.1.history = s.history ∧
    ((scanRequestsOf x.2 = [] ∧ x.1.pending = s.pending) ∨
      ∃ own, x.1.pending = mapSet s.pending adv req ∧ scanRequestsOf x.2 = [(own, adv)]) ∧
    requestsOf x.2 = [] ∧ calledBack x.2 = false := by
  unfold scanRequest at h
  split at h
  · cases h; exact ⟨.refl _, rfl, rfl, .inl ⟨rfl, rfl⟩, rfl, rfl⟩
  split at h
  · cases h; exact ⟨.refl _, rfl, rfl, .inl ⟨rfl, rfl⟩, rfl, rfl⟩
  split at h
  · cases h; exact ⟨.refl _, rfl, rfl, .inl ⟨rfl, rfl⟩, rfl, rfl⟩
  split at h
  · cases h; exact ⟨.refl _, rfl, rfl, .inl ⟨rfl, rfl⟩, rfl, rfl⟩
  split at h
  · cases h
  · cases h; exact ⟨sameLists_generated _ _ _, rfl, rfl, .inr ⟨_, rfl, rfl⟩, rfl, rfl⟩

theorem scanLegacy_scanned {ah : Hash} {cfg : Config} {rnd : Irk → Address} {now : Nat} {s : State}
    {p : LegacyPdu} {x : State × List Out} (h : scanLegacy ah cfg rnd now s p = .ok x) :
    Scanned cfg rnd now s (.legacyAdv p) p.adv (reportsLegacy ah cfg s p) x := by
  have hu := plain_update ah s p.adv
  simp only [scanLegacy] at h
  simp only [reportsLegacy]
  split at h
  · rename_i h1; cases h; exact ⟨.refl _, rfl, by simp [h1], .inl ⟨rfl, rfl⟩, rfl, rfl⟩
  rename_i h1
  rw [scanAccepts_update] at h
  split at h
  · rename_i h4; cases h; exact ⟨hu.1, initiator_update _ _ _, by simp [h4], .inl ⟨rfl, rfl⟩, rfl, rfl⟩
  rename_i h4
  have hn := notDuplicate_update ah s p.adv (.legacyAdv p)
  have hh := remember_history { s with le := resolveUpdate ah s.le p.adv } (.legacyAdv p)
  rw [hn] at hh
  rw [hn] at h
  obtain ⟨q, hq, hx⟩ := Res.bind_eq_ok h
  cases hx
  simp only [Bool.not_eq_false] at h1 h4
  simp only [h1, h4, Bool.true_and]
  obtain ⟨g1, g2, g3, g4, g5, g6⟩ := scanRequest_scanned hq
  obtain ⟨hi, hf⟩ := remember_frame { s with le := resolveUpdate ah s.le p.adv } (.legacyAdv p)
  have hl := quiet_legacyReports ah (resolveUpdate ah s.le p.adv) p (resolved ah s.le p.adv)
  have he : scanRequestsOf (if notDuplicate s (.legacyAdv p) = true then
      legacyReports ah (resolveUpdate ah s.le p.adv) p (resolved ah s.le p.adv) else []) = [] := by
    split
    · exact scanRequestsOf_legacyReports _ _ _ _
    · rfl
  refine ⟨?_, ?_, ?_, ?_, ?_, ?_⟩
  · rw [hf] at g1; exact hu.1.trans g1
  · rw [hf] at g2; exact g2.trans (initiator_update _ _ _)
  · refine g3.trans (hh.trans ?_)
    have h5 := hu.1.5
    simp only at h5
    simp only [h5]
    try rfl
  · simp only [scanRequestsOf_append, he, List.nil_append]
    rcases g4 with ⟨k1, k2⟩ | ⟨own, k1, k2⟩
    · exact .inl ⟨k1, by rw [k2, hf]⟩
    · exact .inr ⟨own, _, rfl, by rw [k1, hf], k2⟩
  · simp only [requestsOf_append', g5, List.append_nil]
    split
    · exact hl.1
    · rfl
  · simp only [calledBack_append, g6, Bool.or_false]
    split
    · exact hl.2
    · rfl

theorem scanExtended_scanned {ah : Hash} {cfg : Config} {rnd : Irk → Address} {now : Nat} {s : State}
    {p : ExtPdu} {x : State × List Out} (h : scanExtended ah cfg rnd now s p = .ok x) :
    Scanned cfg rnd now s (.extAdv p) p.adv (reportsExtended ah cfg s p) x := by
  have hu := plain_update ah s p.adv
  simp only [scanExtended] at h
  simp only [reportsExtended]
  split at h
  · rename_i h1; cases h; exact ⟨.refl _, rfl, by simp [h1], .inl ⟨rfl, rfl⟩, rfl, rfl⟩
  rename_i h1
  split at h
  · rename_i h2; cases h; exact ⟨.refl _, rfl, by simp [h2], .inl ⟨rfl, rfl⟩, rfl, rfl⟩
  rename_i h2
  split at h
  · rename_i h3; cases h; exact ⟨.refl _, rfl, by simp [h3], .inl ⟨rfl, rfl⟩, rfl, rfl⟩
  rename_i h3
  rw [scanAccepts_update] at h
  split at h
  · rename_i h4; cases h; exact ⟨hu.1, initiator_update _ _ _, by simp [h4], .inl ⟨rfl, rfl⟩, rfl, rfl⟩
  rename_i h4
  have hn := notDuplicate_update ah s p.adv (.extAdv p)
  have hh := remember_history { s with le := resolveUpdate ah s.le p.adv } (.extAdv p)
  rw [hn] at hh
  rw [hn] at h
  obtain ⟨q, hq, hx⟩ := Res.bind_eq_ok h
  cases hx
  simp only [Bool.not_eq_false] at h1 h2 h3 h4
  simp only [h1, h2, h3, h4, Bool.true_and]
  obtain ⟨g1, g2, g3, g4, g5, g6⟩ := scanRequest_scanned hq
  obtain ⟨hi, hf⟩ := remember_frame { s with le := resolveUpdate ah s.le p.adv } (.extAdv p)
  have hl := quiet_extReports p (resolved ah s.le p.adv)
  have he : scanRequestsOf (if notDuplicate s (.extAdv p) = true then extReports p (resolved ah s.le p.adv) else []) = [] := by
    split
    · exact scanRequestsOf_extReports _ _
    · rfl
  refine ⟨?_, ?_, ?_, ?_, ?_, ?_⟩
  · rw [hf] at g1; exact hu.1.trans g1
  · rw [hf] at g2; exact g2.trans (initiator_update _ _ _)
  · refine g3.trans (hh.trans ?_)
    have h5 := hu.1.5
    simp only at h5
    simp only [h5]
    try rfl
  · simp only [scanRequestsOf_append, he, List.nil_append]
    rcases g4 with ⟨k1, k2⟩ | ⟨own, k1, k2⟩
    · exact .inl ⟨k1, by rw [k2, hf]⟩
    · exact .inr ⟨own, _, rfl, by rw [k1, hf], k2⟩
  · simp only [requestsOf_append', g5, List.append_nil]
    split
    · exact hl.1
    · rfl
  · simp only [calledBack_append, g6, Bool.or_false]
    split
    · exact hl.2
    · rfl

/-- What the initiator does with a packet. -/
theorem initiate_does {ah : Hash} {cfg : Config} {rnd : Irk → Address} {s : State}
    {adv target : AddressWithType} {c d : Bool} {x : State × List Out}
    (h : initiate ah cfg rnd s adv target c d = .ok x) :
    SameLists s.le x.1.le ∧ x.1.history = s.history ∧ x.1.pending = s.pending ∧
    told x.2 = false ∧ scanRequestsOf x.2 = [] ∧ calledBack x.2 = false ∧
    ((requestsOf x.2 = [] ∧ x.1.le.initiator = s.le.initiator) ∨
      ∃ i, requestsOf x.2 ≠ [] ∧ x.1.le.initiator = { s.le.initiator with pendingConnectRequest := some adv, initiatingAddress := i }) := by
  have hu := plain_update ah s adv
  simp only [initiate] at h
  split at h
  · cases h; exact ⟨.refl _, rfl, rfl, rfl, rfl, rfl, .inl ⟨rfl, rfl⟩⟩
  split at h
  · cases h; exact ⟨.refl _, rfl, rfl, rfl, rfl, rfl, .inl ⟨rfl, rfl⟩⟩
  split at h
  · cases h; exact ⟨hu.1, rfl, rfl, rfl, rfl, rfl, .inl ⟨rfl, initiator_update _ _ _⟩⟩
  split at h
  · cases h
  · rename_i own _
    cases h
    have hg := hu.1.trans (sameLists_generated rnd _ (resolved ah s.le adv))
    refine ⟨⟨hg.1, hg.2, hg.3, hg.4, hg.5, hg.6, hg.7⟩, rfl, rfl, rfl, rfl, rfl, .inr ?_⟩
    refine ⟨own.address, List.cons_ne_nil _ _, ?_⟩
    simp only [generated, initiator_update]

theorem connectLegacy_does {ah : Hash} {cfg : Config} {rnd : Irk → Address} {s : State}
    {p : LegacyPdu} {x : State × List Out} (h : connectLegacy ah cfg rnd s p = .ok x) :
    SameLists s.le x.1.le ∧ x.1.history = s.history ∧ x.1.pending = s.pending ∧
    told x.2 = false ∧ scanRequestsOf x.2 = [] ∧ calledBack x.2 = false ∧
    ((requestsOf x.2 = [] ∧ x.1.le.initiator = s.le.initiator) ∨
      ∃ i, requestsOf x.2 ≠ [] ∧ x.1.le.initiator = { s.le.initiator with pendingConnectRequest := some p.adv, initiatingAddress := i }) := by
  simp only [connectLegacy] at h
  split at h
  · cases h; exact ⟨.refl _, rfl, rfl, rfl, rfl, rfl, .inl ⟨rfl, rfl⟩⟩
  · exact initiate_does h

theorem connectExtended_does {ah : Hash} {cfg : Config} {rnd : Irk → Address} {s : State}
    {p : ExtPdu} {x : State × List Out} (h : connectExtended ah cfg rnd s p = .ok x) :
    SameLists s.le x.1.le ∧ x.1.history = s.history ∧ x.1.pending = s.pending ∧
    told x.2 = false ∧ scanRequestsOf x.2 = [] ∧ calledBack x.2 = false ∧
    ((requestsOf x.2 = [] ∧ x.1.le.initiator = s.le.initiator) ∨
      ∃ i, requestsOf x.2 ≠ [] ∧ x.1.le.initiator = { s.le.initiator with pendingConnectRequest := some p.adv, initiatingAddress := i }) := by
  simp only [connectExtended] at h
  split at h
  · cases h; exact ⟨.refl _, rfl, rfl, rfl, rfl, rfl, .inl ⟨rfl, rfl⟩⟩
  split at h
  · cases h; exact ⟨.refl _, rfl, rfl, rfl, rfl, rfl, .inl ⟨rfl, rfl⟩⟩
  · exact initiate_does h

/-- An advertising packet, all in all. -/
structure Advertised (now : Nat) (s : State) (p : Packet) (adv : AddressWithType) (rep : Bool) (x : State × List Out) : Prop where
  lists : SameLists s.le x.1.le
  history : x.1.history = if rep = true ∧ s.le.scanner.filterDuplicates ≠ .disabled then p :: s.history else s.history
  pending : (scanRequestsOf x.2 = [] ∧ x.1.pending = s.pending) ∨
    ∃ own req, req.timeout = now + 200000 ∧ x.1.pending = mapSet s.pending adv req ∧ scanRequestsOf x.2 = [(own, adv)]
  back : calledBack x.2 = false
  call : (requestsOf x.2 = [] ∧ x.1.le.initiator = s.le.initiator) ∨
      ∃ i, requestsOf x.2 ≠ [] ∧ x.1.le.initiator = { s.le.initiator with pendingConnectRequest := some adv, initiatingAddress := i }

theorem advertised_of {cfg : Config} {rnd : Irk → Address} {now : Nat} {s : State} {p : Packet} {adv : AddressWithType} {rep : Bool}
    {y z : State × List Out} (h : Scanned cfg rnd now s p adv rep y)
    (h1 : SameLists y.1.le z.1.le) (h2 : z.1.history = y.1.history) (h3 : z.1.pending = y.1.pending)
    (h5 : scanRequestsOf z.2 = []) (h6 : calledBack z.2 = false)
    (h7 : (requestsOf z.2 = [] ∧ z.1.le.initiator = y.1.le.initiator) ∨
      ∃ i, requestsOf z.2 ≠ [] ∧ z.1.le.initiator = { y.1.le.initiator with pendingConnectRequest := some adv, initiatingAddress := i }) :
    Advertised now s p adv rep (z.1, y.2 ++ z.2) := by
  refine ⟨h.1.trans h1, h2.trans h.3, ?_, ?_, ?_⟩
  · simp only [scanRequestsOf_append, h5, List.append_nil, h3]; exact h.4
  · simp only [calledBack_append, h.6, h6, Bool.or_self]
  · simp only [requestsOf_append', h.5, List.nil_append]
    rw [h.2] at h7
    exact h7

theorem receive_advertised_legacy {ah : Hash} {cfg : Config} {rnd : Irk → Address} {now : Nat} {s : State}
    {p : LegacyPdu} {x : State × List Out} (h : receive ah cfg rnd now s (.legacyAdv p) = .ok x) :
    Advertised now s (.legacyAdv p) p.adv (reportsLegacy ah cfg s p) x ∧
      told x.2 = (reportsLegacy ah cfg s p && (s.le.legacyInUse || s.le.extendedInUse)) := by
  obtain ⟨y, z, hy, hz, rfl⟩ := receive_legacyAdv h
  obtain ⟨h1, h2, h3, h4, h5, h6, h7⟩ := connectLegacy_does hz
  refine ⟨advertised_of (scanLegacy_scanned hy) h1 h2 h3 h5 h6 h7, ?_⟩
  obtain ⟨o, ho, hy2⟩ := scanLegacy_out hy
  have hn : told o = false := by rcases ho with rfl | ⟨-, own, rfl⟩ <;> rfl
  simp only [told_append, hy2, hn, h4, Bool.or_false]
  cases reportsLegacy ah cfg s p
  · rfl
  · exact told_legacyReports ah s.le p _

theorem receive_advertised_ext {ah : Hash} {cfg : Config} {rnd : Irk → Address} {now : Nat} {s : State}
    {p : ExtPdu} {x : State × List Out} (h : receive ah cfg rnd now s (.extAdv p) = .ok x) :
    Advertised now s (.extAdv p) p.adv (reportsExtended ah cfg s p) x ∧ told x.2 = reportsExtended ah cfg s p := by
  obtain ⟨y, z, hy, hz, rfl⟩ := receive_extAdv h
  obtain ⟨h1, h2, h3, h4, h5, h6, h7⟩ := connectExtended_does hz
  refine ⟨advertised_of (scanExtended_scanned hy) h1 h2 h3 h5 h6 h7, ?_⟩
  obtain ⟨o, ho, hy2⟩ := scanExtended_out hy
  have hn : told o = false := by rcases ho with rfl | ⟨-, own, rfl⟩ <;> rfl
  simp only [told_append, hy2, hn, h4, Bool.or_false]
  cases reportsExtended ah cfg s p
  · rfl
  · exact told_extReports p _

theorem told_responseReports (s : Le.State) (req : ScanRequest) (r : AddressWithType) (d : List UInt8) :
    told (responseReports s req r d) = (s.legacyInUse || s.extendedInUse) ∧ scanRequestsOf (responseReports s req r d) = [] ∧
    requestsOf (responseReports s req r d) = [] ∧ calledBack (responseReports s req r d) = false := by
  have hne : fragments maxExtFragment d ≠ [] := by unfold fragments; cases d.length <;> exact nofun
  simp only [responseReports]
  cases s.legacyInUse <;> cases s.extendedInUse <;> simp only [Bool.false_eq_true, if_false, if_true, List.nil_append, List.append_nil]
  all_goals
    revert hne
    cases fragments maxExtFragment d with
    | nil => exact fun h => absurd rfl h
    | cons a l =>
      intro hne
      clear hne
      refine ⟨rfl, ?_⟩
      induction l with
      | nil => exact ⟨rfl, rfl, rfl⟩
      | cons b l ih => exact ih

/-- A scan response, all in all. -/
theorem receive_response {ah : Hash} {cfg : Config} {rnd : Irk → Address} {now : Nat} {s : State}
    {adv : AddressWithType} {sc : Address} {d : List UInt8} {x : State × List Out}
    (h : receive ah cfg rnd now s (.scanResponse adv sc d) = .ok x) :
    SameLists s.le x.1.le ∧ x.1.le.initiator = s.le.initiator ∧ scanRequestsOf x.2 = [] ∧ requestsOf x.2 = [] ∧ calledBack x.2 = false ∧
    ∃ rep, rep = (s.le.scanner.enable && (mapFind s.pending adv).isSome && notDuplicate s (.scanResponse adv sc d)) ∧
      told x.2 = (rep && (s.le.legacyInUse || s.le.extendedInUse)) ∧
      (s.le.scanner.enable = true → ∀ a, mapFind x.1.pending a = if a = adv then none else mapFind s.pending a) ∧
      x.1.history = if rep = true ∧ s.le.scanner.filterDuplicates ≠ .disabled then .scanResponse adv sc d :: s.history else s.history := by
  cases h
  have hu := plain_update ah s adv
  have hs : (resolveUpdate ah s.le adv).scanner = s.le.scanner := hu.1.5
  simp only [scanResponse]
  split
  · rename_i he
    refine ⟨.refl _, rfl, rfl, rfl, rfl, _, rfl, by simp [he, told], by simp [he], by simp [he]⟩
  rename_i he
  have he : s.le.scanner.enable = true := by simpa using he
  split
  · rename_i hn
    refine ⟨.refl _, rfl, rfl, rfl, rfl, _, rfl, by simp [hn, told], fun _ a => ?_, by simp [hn]⟩
    split
    · rename_i ha; rw [ha]; exact hn
    · rfl
  rename_i req hq
  have hd : notDuplicate { s with le := resolveUpdate ah s.le adv, pending := mapErase s.pending adv } (.scanResponse adv sc d) =
      notDuplicate s (.scanResponse adv sc d) := by simp only [notDuplicate, hs]
  obtain ⟨g1, g2, g3, g4⟩ := told_responseReports (resolveUpdate ah s.le adv) req (resolved ah s.le adv) d
  rw [hu.1.6, hu.1.7] at g1
  simp only [hd, remember_le]
  refine ⟨hu.1, initiator_update _ _ _, by split; exact g2; rfl, by split; exact g3; rfl, by split; exact g4; rfl, _, rfl, ?_, ?_, ?_⟩
  · simp only [he, hq, Option.isSome_some, Bool.true_and]
    cases notDuplicate s (.scanResponse adv sc d)
    · rfl
    · exact g1
  · intro _ a
    obtain ⟨hi, hf⟩ := remember_frame { s with le := resolveUpdate ah s.le adv, pending := mapErase s.pending adv } (.scanResponse adv sc d)
    rw [hf]
    simp only
    rw [mapFind_mapErase]
    by_cases ha : adv = a
    · rw [if_pos ha, if_pos ha.symm]
    · rw [if_neg ha, if_neg (Ne.symm ha)]
  · rw [remember_history, hd]
    simp only [hs, he, hq, Option.isSome_some, Bool.true_and]

theorem response_keys {ah : Hash} {cfg : Config} {rnd : Irk → Address} {now : Nat} {s : State}
    {adv : AddressWithType} {sc : Address} {d : List UInt8} {x : State × List Out}
    (h : receive ah cfg rnd now s (.scanResponse adv sc d) = .ok x) (hk : (s.pending.map (·.1)).Nodup) :
    (x.1.pending.map (·.1)).Nodup := by
  cases h
  simp only [scanResponse]
  split
  · exact hk
  split
  · exact hk
  · obtain ⟨hi, hf⟩ := remember_frame { s with le := resolveUpdate ah s.le adv, pending := mapErase s.pending adv } (.scanResponse adv sc d)
    rw [hf]
    exact hk.sublist (mapErase_keys_sublist _ _)

end Verif.Ll
