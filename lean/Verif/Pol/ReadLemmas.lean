import Verif.Pol.Lemmas
/-!
# What is read of a connection
-/
namespace Verif.Pol
open Verif.Br (Ctl Cmd Ev Act Pkt Role Acl Inv Info)
open Verif.Conn (Table find)

theorem reach_inv {p : P} (h : Reach p) : Inv p.c ∧ RInv p := by
  obtain ⟨addr, info, iac, as, l, hn, hr⟩ := h
  have h0 : Inv (P.fresh (Ctl.fresh addr info iac)).c := Br.fresh_inv addr info iac
  exact ⟨prun_inv h0 as hn hr, prun_rinv h0 (by intro h r hf; cases hf) as hn hr⟩

theorem connected_iff {p : P} {h : Nat} : Connected p h ↔ ∃ c, find p.c.acl h = some c := by
  simp only [Connected, answer, command, onAcl]
  cases find p.c.acl h <;> simp [say]

theorem leConnected_iff {p : P} {h : Nat} : LeConnected p h ↔ ∃ c, find p.le h = some c := by
  simp only [LeConnected, answer, command, onLe]
  cases find p.le h <;> simp [say]

theorem none_of_not {p : P} {h : Nat} (hn : ¬Connected p h) : find p.c.acl h = none := by
  cases hf : find p.c.acl h with
  | none => rfl
  | some c => exact absurd (connected_iff.mpr ⟨c, hf⟩) hn

theorem leNone_of_not {p : P} {h : Nat} (hn : ¬LeConnected p h) : find p.le h = none := by
  cases hf : find p.le h with
  | none => rfl
  | some c => exact absurd (leConnected_iff.mpr ⟨c, hf⟩) hn

theorem find?_find {C : Type} (t : Table C) (h : Nat) : (t.find? (fun e => e.1 = h)).map (fun e => e.2) = find t h := by
  induction t with
  | nil => rfl
  | cons e t ih =>
    obtain ⟨j, d⟩ := e
    by_cases hj : j = h
    · simp [find, hj]
    · simp [find, hj, ih]

theorem peerOf_some {p : P} {h : Nat} {c : Acl} (hf : find p.c.acl h = some c) : peerOf p h = some c.addr := by
  unfold peerOf
  rw [← find?_find] at hf
  cases hx : p.c.acl.find? (fun e => e.1 = h) with
  | none => rw [hx] at hf; cases hf
  | some e => rw [hx] at hf; cases hf; rfl

theorem policy_step {p : P} (hi : Inv p.c) {now : Nat} {a : PAct} {o : Out} (h : pstep p now a = some o) {k : Nat} {c' : Acl}
    (hk : find o.p.c.acl k = some c') :
    (∃ c, find p.c.acl k = some c ∧ c'.addr = c.addr ∧ (c'.policy = c.policy ∨ (part a = some (.cmd (.writePolicy k c'.policy)) ∧ o.reply.status = 0)) ∧
      (c'.role = c.role ∨ (p.c.mask.testBit 17 = true → PEv.base (.roleChange 0 c.addr c'.role) ∈ o.ev))) ∨
    (find p.c.acl k = none ∧ c'.policy = p.c.policy) := by
  rcases pstep_cases h with ⟨-, h1, -⟩ | ⟨x, ev, h1, h2, h3, -⟩
  · rw [h1] at hk
    exact Or.inl ⟨c', hk, rfl, Or.inl rfl, Or.inl rfl⟩
  · rcases (step_kept hi h2).conn k c' hk with ⟨c, hc, ha, hp, hr⟩ | hx
    · refine Or.inl ⟨c, hc, ha, ?_, ?_⟩
      · rcases hp with hp | ⟨rfl, hp⟩
        · exact Or.inl hp
        · exact Or.inr ⟨h1, hp⟩
      · rcases hr with hr | hr
        · exact Or.inl hr
        · refine Or.inr fun hm => ?_
          rw [h3]
          exact List.mem_map_of_mem (hr hm)
    · exact Or.inr hx

theorem always_head {p : P} {as : List (Nat × PAct)} {Q : P → Prop} (h : Always p as Q) : Q p := h [] as p [] rfl rfl

theorem always_tail {p : P} {x : Nat × PAct} {as : List (Nat × PAct)} {Q : P → Prop} {o : Out} (hs : pstep p x.1 x.2 = some o)
    (h : Always p (x :: as) Q) : Always o.p as Q := by
  intro pre post p' l e hr
  obtain ⟨now, a⟩ := x
  refine h ((now, a) :: pre) post p' (⟨now, a, o.reply, o.out, o.ev⟩ :: l) (by rw [e]; rfl) ?_
  simp only at hs
  simp only [prun, hs, hr, Option.map_some]

theorem answer_policy {p : P} {h : Nat} {c : Acl} (hf : find p.c.acl h = some c) : answer p (.readPolicy h) = ⟨0, [h, c.policy]⟩ := by
  simp only [answer, command, onAcl, hf, say]

theorem answer_role {p : P} {h : Nat} {c : Acl} (hf : find p.c.acl h = some c) : answer p (.role h) = ⟨0, [h, roleCode c.role]⟩ := by
  simp only [answer, command, onAcl, hf, say]

theorem getLast?_getD_cons {α : Type} (x : α) (l : List α) (d : α) : ((x :: l).getLast?).getD d = (l.getLast?).getD x := by
  cases l with
  | nil => rfl
  | cons y l => simp [List.getLast?_cons_cons, List.getLast?_cons]

theorem lastHeard_cons {α : Type} (f : PAct → Option α) (r : α) (x : Nat × PAct) (as : List (Nat × PAct)) :
    lastHeard f r (x :: as) = lastHeard f ((f x.2).getD r) as := by
  unfold lastHeard
  cases hf : f x.2 with
  | none => simp [hf]
  | some y => simp [hf, getLast?_getD_cons]

theorem answer_rssi {p : P} (hi : Inv p.c) {h : Nat} {c : Acl} (hf : find p.c.acl h = some c) :
    answer p (.readRssi h) = ⟨0, [h, (find p.rssi h).getD 0]⟩ := by
  have hk : h ≤ 0xff := (hi.sound.range _ (List.mem_map_of_mem (Conn.find_mem _ _ _ hf))).2
  simp only [answer, command, readRssi, hk, if_true, onAcl, hf, say]

theorem aclOf_of_find {s : Ctl} (hi : Inv s) {h : Nat} {c : Acl} (hf : find s.acl h = some c) : Br.aclOf s c.addr = some (h, c) := by
  cases hx : Br.aclOf s c.addr with
  | none =>
    rw [Br.aclOf_find?] at hx
    have := List.find?_eq_none.mp hx _ (Conn.find_mem _ _ _ hf)
    simp at this
  | some e =>
    obtain ⟨k, d⟩ := e
    obtain ⟨hm, ha⟩ := Br.aclOf_some hx
    have hk := (Br.mem_acl hi).mp hm
    have := addr_unique hi hk hf ha
    subst this
    rw [hf] at hk
    cases hk
    rfl

theorem rssi_step {p : P} (hi : Inv p.c) {now : Nat} {a : PAct} {o : Out} (hs : pstep p now a = some o) {h : Nat} {c c' : Acl}
    (hf : find p.c.acl h = some c) (hf' : find o.p.c.acl h = some c') :
    (find o.p.rssi h).getD 0 = (heard p.c.addr c.addr a).getD ((find p.rssi h).getD 0) ∧ c'.addr = c.addr ∧ o.p.c.addr = p.c.addr := by
  refine ⟨?_, ?_, ?_⟩
  · rcases pstep_cases hs with ⟨h0, -, h2, -⟩ | ⟨x, ev, h1, h2, -, h4, -⟩
    · have : heard p.c.addr c.addr a = none := by
        cases a with
        | bredr x => cases h0
        | _ => rfl
      rw [this, h2]
      rfl
    · by_cases hx : ∃ src dst r pb bc d, x = .packet src dst r (.acl pb bc d)
      · obtain ⟨src, dst, r, pb, bc, d, rfl⟩ := hx
        have ha : a = .bredr (.packet src dst r (.acl pb bc d)) := by
          cases a with
          | host c =>
            cases c with
            | base c => cases h1
            | _ => cases h1
          | bredr x => cases h1; rfl
          | le x => cases h1
        subst ha
        rw [h4]
        simp only [rssiAfter, heard]
        by_cases hd : dst ≠ 0 ∧ dst ≠ p.c.addr
        · have : ¬(src = c.addr ∧ (dst = p.c.addr ∨ dst = 0)) := by omega
          simp only [if_pos hd, if_neg this, Option.getD_none]
        · simp only [hd, if_false]
          by_cases he : src = c.addr
          · subst he
            rw [aclOf_of_find hi hf]
            have : dst = p.c.addr ∨ dst = 0 := by omega
            simp [find, this]
          · simp only [he, false_and, if_false, Option.getD_none]
            cases hk : Br.aclOf p.c src with
            | none => rfl
            | some e =>
              obtain ⟨k, d'⟩ := e
              obtain ⟨hm, hs'⟩ := Br.aclOf_some hk
              have hne : k ≠ h := by
                intro e
                subst e
                rw [(Br.mem_acl hi).mp hm] at hf
                cases hf
                exact he hs'.symm
              simp only [find, hne, if_false, find_erase, hne.symm]
      · have hn : heard p.c.addr c.addr a = none := by
          cases a with
          | bredr x =>
            cases h1
            cases x with
            | packet src dst r q =>
              cases q with
              | acl pb bc d => exact absurd ⟨_, _, _, _, _, _, rfl⟩ hx
              | _ => rfl
            | _ => rfl
          | _ => rfl
        rw [hn, h4, rssiAfter_other (fun src dst r pb bc d e => hx ⟨src, dst, r, pb, bc, d, e⟩), find_filter _ (fun k => (find o.p.c.acl k).isSome)]
        simp [hf']
  · rcases policy_step hi hs hf' with ⟨c0, h0, ha, -⟩ | ⟨h0, -⟩
    · rw [hf] at h0
      cases h0
      exact ha
    · rw [hf] at h0
      cases h0
  · rcases pstep_cases hs with ⟨-, h1, -⟩ | ⟨x, ev, -, h2, -⟩
    · rw [h1]
    · exact Br.step_addr h2

theorem pstep_le {p : P} {now : Nat} {a : PAct} {o : Out} (h : pstep p now a = some o) :
    o.p.le = match a with
      | .le x => leAfter p.le x
      | _ => if isReset a then [] else p.le := by
  have hrest : ∀ x, rest p now x = some o → o.p.le = if x = .cmd .reset then [] else p.le := by
    intro x hx
    unfold rest at hx
    split at hx
    · cases hx; rfl
    · cases hx
  have hsay : ∀ st vals, say p st vals = some o → o.p.le = p.le := by
    intro st vals hx
    cases hx
    rfl
  have hacl : ∀ k vals f, (∀ c, f c = some o → o.p.le = p.le) → onAcl p k vals f = some o → o.p.le = p.le := by
    intro k vals f hf hx
    unfold onAcl at hx
    split at hx
    · exact hsay _ _ hx
    · exact hf _ hx
  have hle : ∀ k vals f, (∀ c, f c = some o → o.p.le = p.le) → onLe p k vals f = some o → o.p.le = p.le := by
    intro k vals f hf hx
    unfold onLe at hx
    split at hx
    · exact hsay _ _ hx
    · exact hf _ hx
  cases a with
  | bredr x => simpa [isReset, part] using hrest x h
  | le x => cases h; rfl
  | host c =>
    cases c with
    | base c => simpa [isReset, part] using hrest (.cmd c) h
    | oob => cases h; rfl
    | oobExtended => cases h; rfl
    | _ =>
      simp only [isReset, part, reduceCtorEq, if_false]
      simp only [pstep, command, packetType, hold, sniff, qos, flow, subrating, readRssi, leDataLength, lePower] at h
      first
        | exact hsay _ _ h
        | exact hacl _ _ _ (fun c hc => by (repeat' split at hc) <;> first | exact hsay _ _ hc | (cases hc; rfl)) h
        | exact hle _ _ _ (fun c hc => by (repeat' split at hc) <;> first | exact hsay _ _ hc | (cases hc; rfl)) h
        | (split at h
           · exact hacl _ _ _ (fun c hc => hsay _ _ hc) h
           · split at h
             · exact hle _ _ _ (fun c hc => hsay _ _ hc) h
             · exact hsay _ _ h)

/-- LE connections have LE handles. -/
def LInv (p : P) : Prop := ∀ h c, find p.le h = some c → 0x200 ≤ h ∧ h ≤ 0x2ff

/-- One step of an LE connection that is there after it. -/
theorem le_step {p : P} {now : Nat} {a : PAct} {o : Out} (hs : pstep p now a = some o) {h : Nat} {c' : Le} (hf' : find o.p.le h = some c') :
    (∃ c, find p.le h = some c ∧ c'.rssi = (heardLe h a).getD c.rssi ∧ ((c'.tx, c'.rx) = (physOf h a).getD (c.tx, c.rx) ∨ ∃ tx rx, a = .le (.up h tx rx) ∧ c' = c)) ∨
    (find p.le h = none ∧ c'.rssi = 0 ∧ 0x200 ≤ h ∧ h ≤ 0x2ff ∧ physOf h a = some (c'.tx, c'.rx)) := by
  rw [pstep_le hs] at hf'
  cases a with
  | le x =>
    cases x with
    | up k tx rx =>
      simp only [leAfter] at hf'
      split at hf'
      · rename_i hk
        simp only [find] at hf'
        split at hf'
        · rename_i e
          subst e
          cases hf'
          exact Or.inr ⟨hk.2.2, rfl, hk.1, hk.2.1, by simp [physOf]⟩
        · rename_i e
          exact Or.inl ⟨c', hf', rfl, Or.inl (by simp [physOf, e])⟩
      · by_cases e : k = h
        · subst e
          exact Or.inl ⟨c', hf', rfl, Or.inr ⟨tx, rx, rfl, rfl⟩⟩
        · exact Or.inl ⟨c', hf', rfl, Or.inl (by simp [physOf, e])⟩
    | down k =>
      simp only [leAfter, find_erase] at hf'
      split at hf'
      · cases hf'
      · exact Or.inl ⟨c', hf', rfl, Or.inl rfl⟩
    | phys k tx rx =>
      simp only [leAfter, find_update] at hf'
      split at hf'
      · rename_i e
        subst e
        cases hc : find p.le h with
        | none => rw [hc] at hf'; cases hf'
        | some c =>
          rw [hc] at hf'
          cases hf'
          exact Or.inl ⟨c, rfl, rfl, Or.inl (by simp [physOf])⟩
      · rename_i e
        exact Or.inl ⟨c', hf', rfl, Or.inl (by simp [physOf, Ne.symm e])⟩
    | data k r =>
      simp only [leAfter, find_update] at hf'
      split at hf'
      · rename_i e
        subst e
        cases hc : find p.le h with
        | none => rw [hc] at hf'; cases hf'
        | some c =>
          rw [hc] at hf'
          cases hf'
          exact Or.inl ⟨c, rfl, by simp [heardLe], Or.inl rfl⟩
      · rename_i e
        exact Or.inl ⟨c', hf', by simp [heardLe, Ne.symm e], Or.inl rfl⟩
  | host x =>
    simp only at hf'
    split at hf'
    · cases hf'
    · exact Or.inl ⟨c', hf', rfl, Or.inl rfl⟩
  | bredr x =>
    simp only at hf'
    split at hf'
    · cases hf'
    · exact Or.inl ⟨c', hf', rfl, Or.inl rfl⟩

theorem reach_linv {p : P} (h : Reach p) : LInv p := by
  obtain ⟨addr, info, iac, as, l, -, hr⟩ := h
  have key : ∀ (as : List (Nat × PAct)) (q : P) (l : List PSeen), LInv q → prun q as = some (p, l) → LInv p := by
    intro as
    induction as with
    | nil => intro q l hq hr; cases hr; exact hq
    | cons x as ih =>
      intro q l hq hr
      obtain ⟨now, a⟩ := x
      obtain ⟨o, l', h1, h2, -⟩ := prun_cons hr
      refine ih o.p l' ?_ h2
      intro k c hk
      rcases le_step h1 hk with ⟨c0, hc0, -⟩ | ⟨-, -, hk1, hk2, -⟩
      · exact hq k c0 hc0
      · exact ⟨hk1, hk2⟩
  exact key as _ l (by intro h c hf; cases hf) hr

theorem answer_le {p : P} (hl : LInv p) {h : Nat} {c : Le} (hf : find p.le h = some c) :
    answer p (.readRssi h) = ⟨0, [h, c.rssi]⟩ ∧ answer p (.lePhy h) = ⟨0, [h, c.tx, c.rx]⟩ := by
  have hk := hl h c hf
  have h1 : ¬h ≤ 0xff := by omega
  constructor
  · simp only [answer, command, readRssi, h1, if_false, if_pos hk, onLe, hf, say]
  · simp only [answer, command, onLe, hf, say]

end Verif.Pol
