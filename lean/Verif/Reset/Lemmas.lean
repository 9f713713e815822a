import Verif.Reset.Spec
import Verif.Br.WishLemmas
/-! # Lemmas about forgetting -/
namespace Verif.Reset

variable {S I O : Type}

/-- The state after some inputs. -/
def go (step : S → I → Option (S × O)) (s : S) : List I → Option S
  | [] => some s
  | i :: is => match step s i with
    | none => none
    | some (s', _) => go step s' is

theorem look_append (step : S → I → Option (S × O)) (s : S) (as bs : List I) :
    look step s (as ++ bs) = (look step s as).bind (fun l => (go step s as).bind (fun s' => (look step s' bs).map (l ++ ·))) := by
  induction as generalizing s with
  | nil => simp [look, go]
  | cons a as ih =>
    simp only [List.cons_append, look, go]
    cases step s a with
    | none => rfl
    | some r =>
      obtain ⟨s', o⟩ := r
      simp only [ih]
      cases look step s' as with
      | none => rfl
      | some l =>
        cases go step s' as with
        | none => rfl
        | some s2 => simp [Function.comp_def]

theorem go_append (step : S → I → Option (S × O)) (s : S) (as bs : List I) :
    go step s (as ++ bs) = (go step s as).bind (fun s' => go step s' bs) := by
  induction as generalizing s with
  | nil => rfl
  | cons a as ih =>
    simp only [List.cons_append, go]
    cases step s a with
    | none => rfl
    | some r => exact ih r.1

theorem look_go (step : S → I → Option (S × O)) (s : S) (as : List I) :
    (look step s as = none ∧ go step s as = none) ∨ ∃ l s', look step s as = some l ∧ go step s as = some s' ∧ l.length = as.length := by
  induction as generalizing s with
  | nil => exact .inr ⟨[], s, rfl, rfl, rfl⟩
  | cons a as ih =>
    simp only [look, go]
    cases step s a with
    | none => exact .inl ⟨rfl, rfl⟩
    | some r =>
      rcases ih r.1 with ⟨h1, h2⟩ | ⟨l, s', h1, h2, h3⟩
      · exact .inl ⟨by simp [h1], h2⟩
      · exact .inr ⟨r.2 :: l, s', by simp [h1], h2, by simp [h3]⟩

theorem later_look {step : S → I → Option (S × O)} {s s1 : S} {as : List I} (h : go step s as = some s1) (cs : List I) :
    later as.length (look step s (as ++ cs)) = look step s1 cs := by
  rcases look_go step s as with ⟨_, h2⟩ | ⟨l, s', h1, h2, h3⟩
  · rw [h] at h2; cases h2
  · rw [h] at h2
    cases h2
    rw [look_append, h1, h, later, ← h3]
    simp [Function.comp_def]

theorem later_none {step : S → I → Option (S × O)} {s : S} {as : List I} (h : go step s as = none) (n : Nat) (cs : List I) :
    later n (look step s (as ++ cs)) = none := by
  rcases look_go step s as with ⟨h1, _⟩ | ⟨l, s', _, h2, _⟩
  · rw [look_append, h1]; rfl
  · rw [h] at h2; cases h2

/-- The states after inputs that are `ok`. -/
theorem reach_of {step : S → I → Option (S × O)} {start : S} {ok : I → Prop} {Q : S → Prop} (h0 : Q start)
    (hs : ∀ s x s' o, Q s → ok x → step s x = some (s', o) → Q s') {as : List I} (hx : ∀ x ∈ as, ok x) {s : S}
    (hg : go step start as = some s) : Q s := by
  induction as generalizing start with
  | nil => cases hg; exact h0
  | cons a as ih =>
    simp only [go] at hg
    cases hr : step start a with
    | none => rw [hr] at hg; cases hg
    | some r =>
      rw [hr] at hg
      exact ih (hs _ _ _ _ h0 (hx a List.mem_cons_self) hr) (fun x h => hx x (List.mem_cons_of_mem _ h)) hg

theorem forgets_of {step : S → I → Option (S × O)} {start : S} {ok : I → Prop} {pre : List I} (Q : S → Prop) (h0 : Q start)
    (hs : ∀ s x s' o, Q s → ok x → step s x = some (s', o) → Q s') (hp : ∀ s t, Q s → Q t → go step s pre = go step t pre) :
    Forgets step start ok pre := by
  intro as bs cs ha hb na nb
  rcases look_go step start as with ⟨h1, _⟩ | ⟨_, s, _, hsa, _⟩
  · exact (na h1).elim
  rcases look_go step start bs with ⟨h1, _⟩ | ⟨_, t, _, htb, _⟩
  · exact (nb h1).elim
  have hq := hp s t (reach_of h0 hs ha hsa) (reach_of h0 hs hb htb)
  have ga : go step start (as ++ pre) = go step s pre := by rw [go_append, hsa]; rfl
  have gb : go step start (bs ++ pre) = go step s pre := by rw [go_append, htb, hq]; rfl
  rw [← List.length_append, ← List.length_append]
  cases hg : go step s pre with
  | none => rw [hg] at ga gb; rw [later_none ga, later_none gb]
  | some u => rw [hg] at ga gb; rw [later_look ga, later_look gb]

theorem asNew_of {step : S → I → Option (S × O)} {start : S} {ok : I → Prop} {pre : List I} (Q : S → Prop) (h0 : Q start)
    (hs : ∀ s x s' o, Q s → ok x → step s x = some (s', o) → Q s') (hp : ∀ s, Q s → go step s pre = some start) :
    AsNew step start ok pre := by
  intro as cs ha na
  rcases look_go step start as with ⟨h1, _⟩ | ⟨_, s, _, hsa, _⟩
  · exact (na h1).elim
  have ga : go step start (as ++ pre) = some start := by rw [go_append, hsa]; exact hp s (reach_of h0 hs ha hsa)
  rw [← List.length_append, later_look ga]

/-! ## The BR/EDR controller -/

/-- What stays as it was made. -/
structure Same (addr n : Nat) (i : Br.Info) (s : Br.Ctl) : Prop where
  inv : Br.Inv s
  addr : s.addr = addr
  codes : s.numIac = n
  fixed : fixed s.info = fixed i

theorem same_step {addr n : Nat} {i : Br.Info} {s s' : Br.Ctl} (h : Same addr n i s) {now : Nat} {a : Br.Act} (hf : Fair i a)
    {st : Br.Status} {out : List (Nat × Br.Pkt)} {ev : List Br.Ev} (hs : Br.step s now a = .ok st s' out ev) : Same addr n i s' := by
  have h1 := Br.fits h.inv now a hf.1
  rw [hs] at h1
  obtain ⟨t1, t2, t3⟩ := Br.tied_step (b := false) (w := ⟨s.inqScan, s.pageScan, s.iac, s.info, s.policy, []⟩) h.inv
    ⟨rfl, rfl, rfl, rfl, rfl, nofun, nofun⟩ (now := now) (a := a) nofun hs
  refine ⟨h1.1, t3.trans h.addr, t2.trans h.codes, ?_⟩
  rw [t1.self]
  have hk := h.fixed
  have hf2 := hf.2
  cases a with
  | tick => exact hk
  | check k => exact hk
  | packet src dst rssi p => exact hk
  | cmd c =>
    cases c with
    | setInfo j => exact hf2 j rfl
    | reset => exact hk
    | writeDefaultPolicy p => simp only [Br.wish]; split <;> exact hk
    | writePolicy k p => simp only [Br.wish]; split <;> exact hk
    | _ => exact hk

/-- The controller after Reset and a tick. -/
def clean (addr n : Nat) (i : Br.Info) : Br.Ctl :=
  { Br.Ctl.fresh addr { i with cod := 0, name := List.replicate 248 0, eir := List.replicate 240 0, hostFeatures := 0 } n with iac := [0x33] }

theorem reset_tick {addr n : Nat} {i : Br.Info} {s : Br.Ctl} (h : Same addr n i s) (now : Nat) :
    ∃ c out, Br.reset s = .ok 0 c out [] ∧ c.acl = [] ∧ ∃ out' ev', Br.tick c now = .ok 0 (clean addr n i) out' ev' := by
  obtain ⟨-, h1, h2, h3⟩ := h
  obtain ⟨a, info, acl, sco, la, ls, lm, page, scan, inq, lat, ps, is, pt, pol, iac, ni, im, mask⟩ := s
  obtain ⟨f1, f2, f3, f4, f5, f6, f7, f8, f9⟩ := info
  obtain ⟨g1, g2, g3, g4, g5, g6, g7, g8, g9⟩ := i
  cases h1
  cases h2
  simp only [fixed, Prod.mk.injEq] at h3
  obtain ⟨rfl, rfl, rfl, rfl, rfl⟩ := h3
  exact ⟨_, _, rfl, rfl, _, _, rfl⟩

/-! ## The commands about its connections -/

theorem policy_keeps {p : Pol.P} {now : Nat} {a : Pol.PAct} {o : Pol.Out} (h : Pol.pstep p now a = some o) :
    o.p.c = p.c ∨ ∃ b st out ev, (a = .bredr b ∨ ∃ c, a = .host (.base c) ∧ b = .cmd c) ∧ Br.step p.c now b = .ok st o.p.c out ev := by
  have hr : ∀ b, Pol.rest p now b = some o → ∃ st out ev, Br.step p.c now b = .ok st o.p.c out ev := by
    intro b hb
    unfold Pol.rest at hb
    split at hb
    · rename_i st c' out ev hs
      cases hb
      exact ⟨st, out, ev, hs⟩
    · cases hb
  cases a with
  | le a => cases h; exact .inl rfl
  | bredr b =>
    obtain ⟨st, out, ev, hs⟩ := hr b h
    exact .inr ⟨b, st, out, ev, .inl rfl, hs⟩
  | host c =>
    cases c with
    | base c =>
      obtain ⟨st, out, ev, hs⟩ := hr _ h
      exact .inr ⟨_, st, out, ev, .inr ⟨c, rfl, rfl⟩, hs⟩
    | _ =>
      refine .inl ?_
      simp only [Pol.pstep, Pol.command] at h
      revert h
      simp only [Pol.packetType, Pol.hold, Pol.sniff, Pol.qos, Pol.flow, Pol.subrating, Pol.readRssi, Pol.oob, Pol.oobExtended, Pol.leDataLength, Pol.lePower, Pol.onAcl, Pol.onLe, Pol.say]
      intro h
      repeat' split at h
      all_goals first | (cases h; rfl) | (simp at h) | skip

/-! ## The registers and the data path -/

theorem registers_keeps {c : Reg.Caps} {s : Reg.St} {x : Reg.Act} (hx : ∀ v, x ≠ .setLeFeature 47 v) : (Reg.step c s x).2.csHost = s.csHost := by
  unfold Reg.step
  split
  · rfl
  · cases x with
    | write p v =>
      simp only [Reg.exec]
      cases p <;> simp only [Reg.write] <;> (try split) <;> rfl
    | setLeFeature b v =>
      have hb : b ≠ 47 := fun h => hx v (h ▸ rfl)
      simp only [Reg.exec, Reg.setLeFeature]
      split
      · rfl
      · rename_i h1
        split
        · rfl
        · have h2 : 1 <<< b ≠ 0x800000000000 := fun h => hb ((Nat.pow_right_inj (a := 2) (by decide)).1 (by rw [Nat.one_shiftLeft] at h; exact h))
          rw [if_neg h2]
          split
          · rfl
          · split <;> rfl
    | readFeatures p => simp only [Reg.exec]; split <;> rfl
    | writePolicy h v => simp only [Reg.exec, Reg.writePolicy]; split; · rfl
                         split <;> rfl
    | _ => rfl

theorem reset_registers (c : Reg.Caps) (s : Reg.St) : go (registers c) s [.reset] = some (Reg.reset s) := by
  have h : Reg.step c s .reset = (.answer 0 [], Reg.reset s) := by simp [Reg.step, Reg.Act.looped, Reg.exec]
  simp only [go, registers, h]

theorem data_keeps {c c' : Flow.Ctl} {i : Flow.In} {o : List Flow.Out} (h : Flow.step c i = some (c', o)) : c'.addr = c.addr := by
  cases i with
  | acl l =>
    simp only [Flow.step, Flow.handleAcl, Flow.brHandleAcl, Flow.leHandleAcl] at h
    repeat' split at h
    all_goals first | (cases h; rfl) | cases h
  | sco l =>
    simp only [Flow.step, Flow.handleSco] at h
    repeat' split at h
    all_goals first | (cases h; rfl) | cases h
  | command l =>
    simp only [Flow.step, Flow.handleCommand, Flow.execute] at h
    repeat' split at h
    all_goals first | (cases h; rfl) | cases h
  | brAir l =>
    simp only [Flow.step, Option.map_eq_some_iff] at h
    obtain ⟨_, _, h⟩ := h
    cases h; rfl
  | leAir l =>
    simp only [Flow.step, Option.map_eq_some_iff] at h
    obtain ⟨_, _, h⟩ := h
    cases h; rfl
  | links a b d => cases h; rfl
  | tick => cases h; rfl

end Verif.Reset
