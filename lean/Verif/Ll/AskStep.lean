import Verif.Ll.AskLemmas
/-!
# Scanning and initiating as the host asked: the notes are kept (C109)
-/

namespace Verif.Ll
open Verif.Le

theorem TiedScan.listening {s t : State} {n : Ask} (h : TiedScan s n) (hl : SameLists s.le t.le) {f : Scan → Scan} {c : Option Call}
    (hf : ∀ r, n.scan = some r → ScanOn s r → ScanOn t (f r)) : TiedScan t { n with scan := n.scan.map f, call := c } := by
  obtain ⟨h1, h2, h3, h4, h5, h6⟩ := h
  have hs := hl.5
  refine ⟨by rw [hs]; exact h1, by rw [hs]; exact h2, by rw [hs]; exact h3, by rw [hs]; exact h4, by rw [hs]; exact h5, ?_⟩
  cases hn : n.scan with
  | none => simp only [hn, Option.map_none] at h6 ⊢; rw [hs]; exact h6
  | some r => simp only [hn, Option.map_some] at h6 ⊢; exact hf r hn h6

theorem Tied.advertised {s : State} {n : Ask} {now : Nat} {p : Packet} {adv : AddressWithType} {rep : Bool} {x : State × List Out}
    (h : Tied s n) (ha : Advertised now s p adv rep x) (ht : s.le.scanner.enable = true → told x.2 = (rep && (s.le.legacyInUse || s.le.extendedInUse)))
    (hne : ∀ a b c, p ≠ .scanResponse a b c) :
    Tied x.1 { n with scan := n.scan.map (Scan.received now p x.2), call := n.call.bind (Call.received x.2) } := by
  obtain ⟨h1, h2, h3⟩ := h
  obtain ⟨hl, hh, hp, hb, hc⟩ := ha
  refine ⟨h1.same hl.1 hl.2 hl.3 hl.4 rfl rfl rfl rfl, h2.listening hl ?_, ?_⟩
  · intro r hr hon
    obtain ⟨k1, k2, k3, k4, k5, k6, k7, k8⟩ := hon
    have ht : told x.2 = rep := by
      rw [ht k1, k2, k3]; cases r.extended <;> simp
    refine ⟨by rw [hl.5]; exact k1, hl.6.trans k2, hl.7.trans k3, by rw [hl.5]; exact k4, by rw [hl.5]; exact ⟨k5.1, k5.2⟩, ?_, ?_, ?_⟩
    · intro hfd
      have hfd : r.filter ≠ .disabled := hfd
      have k6 := k6 hfd
      rw [hh, k4]
      show _ = if told x.2 = true then p :: r.heard else r.heard
      rw [ht, k6]
      cases rep <;> simp [hfd]
    · intro a
      have hg : (Scan.received now p x.2 r).awaits a = if (scanRequestsOf x.2).any (fun q => q.2 == a) then some (now + 200000) else r.awaits a := by
        cases p with
        | scanResponse x y z => exact absurd rfl (hne x y z)
        | _ => rfl
      rw [hg]
      rcases hp with ⟨g1, g2⟩ | ⟨own, req, g1, g2, g3⟩
      · rw [g1, g2]; exact k7 a
      · rw [g2, g3, mapFind_mapSet]
        by_cases hx : adv = a
        · rw [if_pos hx]; simp [hx, g1]
        · rw [if_neg hx]; simp [hx]; exact k7 a
    · rcases hp with ⟨g1, g2⟩ | ⟨own, req, g1, g2, g3⟩
      · rw [g2]; exact k8
      · rw [g2]; exact mapSet_nodup k8 _ _
  · unfold TiedCall at h3 ⊢
    simp only
    cases hn : n.call with
    | none =>
      rw [hn] at h3
      simp only [Option.bind_none] at h3 ⊢
      rcases hc with ⟨-, hc⟩ | ⟨i, -, hc⟩ <;> (rw [hc]; exact h3)
    | some c =>
      rw [hn] at h3
      obtain ⟨k1, k2, k3, k4, k5, k6, k7, k8⟩ := h3
      simp only [Option.bind_some, Call.received, hb, Bool.false_eq_true, if_false]
      rcases hc with ⟨g, hc⟩ | ⟨i, g, hc⟩
      · refine ⟨by rw [hc]; exact k1, hl.6.trans k2, hl.7.trans k3, by rw [hc]; exact k4, by rw [hc]; exact k5, by rw [hc]; exact k6, by rw [hc]; exact k7, ?_⟩
        rw [hc, g]
        simpa using k8
      · refine ⟨by rw [hc]; exact k1, hl.6.trans k2, hl.7.trans k3, by rw [hc]; exact k4, by rw [hc]; exact k5, by rw [hc]; exact k6, by rw [hc]; exact k7, ?_⟩
        rw [hc]
        have : (requestsOf x.2).isEmpty = false := by
          cases hq : requestsOf x.2 with
          | nil => exact absurd hq g
          | cons a l => rfl
        simp [this]

theorem reportsExtended_scans {ah : Hash} {cfg : Config} {s : State} {p : ExtPdu} (h : reportsExtended ah cfg s p = true) :
    s.le.extendedInUse = true := by
  simp only [reportsExtended, Bool.and_eq_true] at h
  tauto

theorem tied_receive {ah : Hash} {cfg : Config} {rnd : Irk → Address} {now : Nat} {s : State} {p : Packet} {x : State × List Out} {n : Ask}
    (hT : Tied s n) (h : receive ah cfg rnd now s p = .ok x) :
    Tied x.1 { n with scan := n.scan.map (Scan.received now p x.2), call := n.call.bind (Call.received x.2) } := by
  by_cases hap : p.apart = true
  · obtain ⟨hp, hs⟩ := receive_plain hap h
    exact tied_plain_receive hT hp hs (by rintro a b c rfl; cases hap)
  cases p with
  | periodic _ => exact absurd rfl hap
  | connect _ _ _ => exact absurd rfl hap
  | scan _ _ => exact absurd rfl hap
  | link _ _ _ => exact absurd rfl hap
  | legacyAdv p =>
    obtain ⟨ha, ht⟩ := receive_advertised_legacy h
    exact hT.advertised ha (fun _ => ht) nofun
  | extAdv p =>
    obtain ⟨ha, ht⟩ := receive_advertised_ext h
    refine hT.advertised ha (fun _ => ?_) nofun
    rw [ht]
    cases hr : reportsExtended ah cfg s p
    · rfl
    · rw [reportsExtended_scans hr]; simp
  | scanResponse adv sc d =>
    obtain ⟨hl, hi, g1, g2, g3, rep, hrep, ht, hpend, hh⟩ := receive_response h
    obtain ⟨h1, h2, h3⟩ := hT
    refine ⟨h1.same hl.1 hl.2 hl.3 hl.4 rfl rfl rfl rfl, h2.listening hl ?_, ?_⟩
    · intro r hr hon
      obtain ⟨k1, k2, k3, k4, k5, k6, k7, k8⟩ := hon
      have ht : told x.2 = rep := by
        rw [ht, k2, k3]; cases r.extended <;> simp
      refine ⟨by rw [hl.5]; exact k1, hl.6.trans k2, hl.7.trans k3, by rw [hl.5]; exact k4, by rw [hl.5]; exact ⟨k5.1, k5.2⟩, ?_, ?_, ?_⟩
      · intro hfd
        have hfd : r.filter ≠ .disabled := hfd
        have k6 := k6 hfd
        rw [hh, k4]
        show _ = if told x.2 = true then _ :: r.heard else r.heard
        rw [ht, k6]
        cases rep <;> simp [hfd]
      · intro a
        rw [hpend k1 a]
        show _ = if a = adv then none else r.awaits a
        by_cases hx : a = adv
        · rw [if_pos hx, if_pos hx]; rfl
        · rw [if_neg hx, if_neg hx]; exact k7 a
      · exact response_keys h k8
    · refine h3.keep (by rw [hi]; exact .refl _) (fun b k1 k2 => ⟨hl.6.trans k1, hl.7.trans k2⟩) ?_
      cases hn : n.call with
      | none => simp only [hn]; rfl
      | some c => simp only [hn, Option.bind_some, Call.received_silent g3 g2]
  | connectComplete init adv q =>
    obtain ⟨hl, hh, hp, ht, hsr, hc⟩ := receive_complete h
    obtain ⟨h1, h2, h3⟩ := hT
    refine ⟨h1.same hl.1 hl.2 hl.3 hl.4 rfl rfl rfl rfl, h2.listening hl ?_, ?_⟩
    · intro r hr hon
      rw [Scan.received_silent (by intro a b c hx; cases hx) ht hsr]
      obtain ⟨k1, k2, k3, k4, k5, k6, k7, k8⟩ := hon
      exact ⟨by rw [hl.5]; exact k1, hl.6.trans k2, hl.7.trans k3, by rw [hl.5]; exact k4, by rw [hl.5]; exact k5,
        by rw [hh]; exact k6, by rw [hp]; exact k7, by rw [hp]; exact k8⟩
    · rcases hc with ⟨e1, e2⟩ | ⟨e1, e2⟩
      · rw [e1, e2]
        unfold TiedCall at h3 ⊢
        simp only
        cases hn : n.call with
        | none => rw [hn] at h3; exact h3
        | some c => rw [hn] at h3; rw [Option.bind_some, Call.received_silent rfl rfl]; exact h3
      · unfold TiedCall
        simp only
        cases hn : n.call with
        | none => exact e2
        | some c => simp only [Option.bind_some, Call.received, e1, if_true]; exact e2

/-! ### Time -/

theorem mapFind_filter {κ α : Type} [DecidableEq κ] {m : List (κ × α)} (hn : (m.map (·.1)).Nodup) (q : α → Bool) (k : κ) :
    mapFind (m.filter fun e => q e.2) k = (mapFind m k).filter q := by
  induction m with
  | nil => rfl
  | cons e m ih =>
    obtain ⟨k', a⟩ := e
    obtain ⟨h1, h2⟩ := List.nodup_cons.1 hn
    rw [mapFind_cons]
    by_cases hq : q a = true
    · rw [List.filter_cons_of_pos (p := fun e : κ × α => q e.2) (a := (k', a)) hq, mapFind_cons, ih h2]
      split
      · simp [Option.filter, hq]
      · rfl
    · rw [List.filter_cons_of_neg (p := fun e : κ × α => q e.2) (a := (k', a)) hq, ih h2]
      split
      · rename_i hk
        subst hk
        rw [mapFind_none.2 h1]
        simp [Option.filter, hq]
      · rfl

theorem tied_tick {now : Nat} {s : State} {x : State × List Out} {n : Ask} (hT : Tied s n) (h : tick now s = .ok x) :
    Tied x.1 { n with scan := n.scan.bind (Scan.tick now) } := by
  obtain ⟨h1, h2, h3⟩ := hT
  simp only [tick] at h
  split at h
  · cases h
  rename_i le out ha
  cases h
  have hle : ∃ a b, le = { s.le with legacyAdv := a, extAdv := b } := by
    simp only [advertising] at ha
    split at ha
    · cases ha
    · cases ha; exact ⟨_, _, rfl⟩
  obtain ⟨la, ea, rfl⟩ := hle
  have hsc : ∃ sc, (scanning now { s.le with legacyAdv := la, extAdv := ea }).1 = { s.le with legacyAdv := la, extAdv := ea, scanner := sc } ∧
      sc.filterPolicy = s.le.scanner.filterPolicy ∧ sc.ownAddressType = s.le.scanner.ownAddressType ∧ sc.le1m = s.le.scanner.le1m ∧ sc.leCoded = s.le.scanner.leCoded := by
    unfold scanning
    split
    · exact ⟨_, rfl, rfl, rfl, rfl, rfl⟩
    · refine ⟨_, rfl, ?_⟩
      repeat' split
      all_goals exact ⟨rfl, rfl, rfl, rfl⟩
  obtain ⟨sc, hsc, e1, e2, e3, e4⟩ := hsc
  refine ⟨?_, ?_, ?_⟩
  · simp only [hsc]
    exact ⟨h1.1, h1.2, h1.3, h1.4, h1.5⟩
  · refine ⟨?_, ?_, ?_, ?_, ?_, ?_⟩
    · simp only [hsc, e1]; exact h2.1
    · simp only [hsc, e2]; exact h2.2
    · simp only [hsc, e3]; exact h2.3
    · simp only [hsc, e3]; exact h2.4
    · simp only [hsc, e4]; exact h2.5
    · have h6 := h2.6
      cases hn : n.scan with
      | none =>
        rw [hn] at h6
        simp only [Option.bind_none]
        simp only [scanning]
        have h6 : s.le.scanner.enable = false := h6
        rw [if_pos h6]
        exact h6
      | some r =>
        rw [hn] at h6
        obtain ⟨k1, k2, k3, k4, k5, k6, k7, k8⟩ := h6
        simp only [Option.bind_some]
        have hpend : ∀ a, (mapFind (s.pending.filter (fun e => !decide (now ≥ e.2.timeout))) a).map (·.timeout) =
            (r.awaits a).filter fun t => decide (now < t) := by
          intro a
          rw [mapFind_filter k8 (fun q => !decide (now ≥ q.timeout)), ← k7 a]
          cases mapFind s.pending a with
          | none => rfl
          | some q =>
            simp only [Option.filter, Option.map_some]
            by_cases hq : now < q.timeout
            · rw [if_pos (by simpa using hq), if_pos (by simpa using hq)]; rfl
            · rw [if_neg (by simpa using hq), if_neg (by simpa using hq)]; rfl
        have hkeys : ((s.pending.filter (fun e => !decide (now ≥ e.2.timeout))).map (·.1)).Nodup :=
          k8.sublist (List.Sublist.map _ List.filter_sublist)
        have hne : ¬ s.le.scanner.enable = false := by rw [k1]; exact nofun
        unfold Scan.tick
        simp only
        by_cases hp : r.period = 0
        · obtain ⟨t1, t2⟩ := k5.1 hp
          rw [if_pos hp]
          by_cases hd : r.duration ≠ 0 ∧ r.since + r.duration ≤ now
          · rw [if_pos hd]
            rw [if_neg hd.1] at t2
            simp only [scanning]
            rw [if_neg hne]
            simp [t1, t2, hd.2]
          · rw [if_neg hd]
            have hexp : Option.any (fun t => decide (now ≥ t)) s.le.scanner.timeout = false := by
              rw [t2]
              split
              · rfl
              · rename_i hd0
                have : ¬ r.since + r.duration ≤ now := fun h => hd ⟨hd0, h⟩
                simpa using this
            simp only [scanning, scanTimers]
            rw [if_neg hne]
            rw [if_neg hne]
            simp only [hexp, t1, Bool.false_and, Bool.false_eq_true, if_false, Option.isSome_none, Bool.and_false, Option.any_none, Bool.or_self]
            exact ⟨k1, k2, k3, k4, ⟨fun _ => ⟨t1, t2⟩, fun h => absurd hp h⟩, k6, hpend, hkeys⟩
        · obtain ⟨t1, t2, t3, t4, t5⟩ := k5.2 hp
          rw [if_neg hp]
          simp only [scanning, scanTimers]
          rw [if_neg hne]
          rw [if_neg hne]
          simp only [t4, Option.isNone_some, Bool.and_false, Bool.false_eq_true, if_false, Option.isSome_some, Bool.and_true, Option.any_some, Bool.true_and, Bool.false_or]
          by_cases hend : r.since + r.period ≤ now
          · rw [if_pos hend]
            have hd : r.since + r.duration ≤ now := by omega
            have hk : r.filter ≠ .disabled → (if (s.le.scanner.filterDuplicates == .resetEachPeriod) = true then ([] : List Packet) else s.history) =
                if r.filter = .resetEachPeriod then [] else r.heard := by
              intro hfd
              rw [k4, k6 hfd]
              simp
            rcases t5 with t5 | t5
            · simp only [t5, Option.any_some, ge_iff_le, hd, hend, decide_true, if_true, Option.isNone_none, Option.isNone_some, Bool.true_and, Bool.or_true, t4, t2, t3]
              exact ⟨k1, k2, k3, k4, ⟨fun h => absurd h hp, fun _ => ⟨t1, rfl, rfl, rfl, .inl rfl⟩⟩, hk, hpend, hkeys⟩
            · simp only [t5, Option.any_none, ge_iff_le, hend, decide_true, if_true, Option.isNone_none, Bool.true_and, Bool.true_or, t4, t2, t3, Bool.false_eq_true, if_false, Option.any_some]
              exact ⟨k1, k2, k3, k4, ⟨fun h => absurd h hp, fun _ => ⟨t1, rfl, rfl, rfl, .inl rfl⟩⟩, hk, hpend, hkeys⟩
          · rw [if_neg hend]
            rcases t5 with t5 | t5
            · by_cases hd : r.since + r.duration ≤ now
              · simp only [t5, Option.any_some, ge_iff_le, hd, hend, decide_true, decide_false, if_true, Option.isNone_none, Option.isNone_some, Bool.true_and, Bool.and_false, Bool.or_true, t4, Bool.false_eq_true, if_false, Bool.false_and]
                exact ⟨k1, k2, k3, k4, ⟨fun h => absurd h hp, fun _ => ⟨t1, t2, t3, rfl, .inr rfl⟩⟩, k6, hpend, hkeys⟩
              · simp only [t5, Option.any_some, ge_iff_le, hd, hend, decide_false, Option.isNone_some, Bool.and_false, Bool.or_false, t4, Bool.false_eq_true, if_false, Bool.false_and]
                exact ⟨k1, k2, k3, k4, ⟨fun h => absurd h hp, fun _ => ⟨t1, t2, t3, t4, .inl t5⟩⟩, k6, hpend, hkeys⟩
            · simp only [t5, Option.any_none, ge_iff_le, hend, decide_false, Option.isNone_none, Bool.true_and, Bool.and_false, Bool.true_or, t4, Bool.false_eq_true, if_false, Bool.false_and, Option.any_some]
              exact ⟨k1, k2, k3, k4, ⟨fun h => absurd h hp, fun _ => ⟨t1, t2, t3, t4, .inr t5⟩⟩, k6, hpend, hkeys⟩
  · simp only [hsc]
    exact h3.keep (.refl _) (fun b k1 k2 => ⟨k1, k2⟩) rfl

/-! ### Every operation -/

theorem tied_reset : Tied {} {} :=
  ⟨⟨rfl, fun _ _ => rfl, rfl, List.nodup_nil, rfl⟩, ⟨rfl, rfl, rfl, nofun, rfl, rfl⟩, rfl⟩

theorem tied_initial (a : Option Address) : Tied (initial a) (Ask.initial a) :=
  ⟨⟨rfl, fun _ _ => rfl, rfl, List.nodup_nil, rfl⟩, ⟨rfl, rfl, rfl, nofun, rfl, rfl⟩, rfl⟩

theorem tied_step {ah : Hash} {cfg : Config} {s : State} {o : Op} {x : State × Obs} {n : Ask}
    (hT : Tied s n) (h : step ah cfg s o = .ok x) : Tied x.1 (n.note o x.2) := by
  cases o with
  | cmd c =>
    simp only [step] at h
    obtain ⟨y, hy, h⟩ := Res.bind_eq_ok h
    cases h
    have hs := scan_cmd hT.2 hy
    obtain ⟨le, hr, hx⟩ := command_cases hy
    have hle : y.1.le = le := by rw [hx]; split <;> rfl
    have hn : n.note (.cmd c) ⟨some y.2, []⟩ = if y.2 = .success then n.accepted c else n := by
      simp only [Ask.note, Option.some.injEq]
    rw [hn]
    exact ⟨by rw [hle]; exact lists_cmd hT.1 hr, hs, by rw [hle]; exact call_cmd hT.3 hr⟩
  | receive rnd now q =>
    simp only [step] at h
    obtain ⟨y, hy, h⟩ := Res.bind_eq_ok h
    cases h
    exact tied_receive hT hy
  | tick now =>
    simp only [step] at h
    obtain ⟨y, hy, h⟩ := Res.bind_eq_ok h
    cases h
    exact tied_tick hT hy
  | sendAcl a b c d =>
    simp only [step, handleAcl] at h
    obtain ⟨y, hy, h⟩ := Res.bind_eq_ok h
    cases h
    split at hy
    · cases hy
    split at hy <;> (cases hy; exact hT)
  | disconnect a b c =>
    simp only [step, disconnect] at h
    obtain ⟨y, hy, h⟩ := Res.bind_eq_ok h
    cases h
    split at hy
    · cases hy; exact hT
    split at hy
    · cases hy
    · rename_i hr
      obtain ⟨-, rfl⟩ := removeConnection_cases hr
      cases hy
      exact hT.plain ⟨.refl _, .refl _, rfl, rfl⟩ rfl rfl rfl rfl rfl rfl rfl rfl rfl rfl
  | reset => cases h; exact tied_reset

theorem tied_run {ah : Hash} {cfg : Config} : ∀ {ops : List Op} {s t : State} {n m : Ask},
    Tied s n → runAsk ah cfg ops s n = .ok (t, m) → Tied t m
  | [], _, _, _, _, hT, h => by cases h; exact hT
  | _ :: _, _, _, _, _, hT, h => by
    simp only [runAsk] at h
    obtain ⟨y, hy, h⟩ := Res.bind_eq_ok h
    exact tied_run (tied_step hT hy) h

end Verif.Ll
