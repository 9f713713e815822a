import Verif.Iso.SpecAgree
import Verif.Iso.PendingLemmas
/-!
# Where the parameters of a CIS come from: lemmas
-/

namespace Verif.Iso

open Verif.Le

/-- The procedure that establishes the CIS is under way. -/
def Cis.Live (c : Cis) : Prop := c.state = .pendingRsp ∨ c.state = .pendingAccept ∨ c.state = .pendingInd

/-- The CIS was there before, with the same parameters. -/
def From (a : List Cis) (c' : Cis) : Prop :=
  ∃ c ∈ a, c.ident = c'.ident ∧ c.acl = c'.acl ∧ c.params = c'.params ∧
    (c.state = c'.state ∨ (c.state = .pendingAccept ∧ c'.state = .pendingInd))

def Back (a b : List Cis) : Prop := ∀ c' ∈ b, c'.Live → From a c'

theorem From.self {a : List Cis} {c : Cis} (h : c ∈ a) : From a c := ⟨c, h, rfl, rfl, rfl, Or.inl rfl⟩

theorem Back.refl (a : List Cis) : Back a a := fun _ h _ => .self h

theorem Back.sub {a b : List Cis} (h : ∀ c ∈ b, c ∈ a) : Back a b := fun c hc _ => .self (h c hc)

theorem Back.trans {a b c : List Cis} (h1 : Back a b) (h2 : Back b c) : Back a c := by
  intro x hx hl
  obtain ⟨y, hy, e1, e2, e3, e4⟩ := h2 x hx hl
  have hly : y.Live := by
    rcases e4 with e4 | ⟨e4, -⟩
    · unfold Cis.Live; rw [e4]; exact hl
    · exact Or.inr (Or.inl e4)
  obtain ⟨z, hz, f1, f2, f3, f4⟩ := h1 y hy hly
  refine ⟨z, hz, f1.trans e1, f2.trans e2, f3.trans e3, ?_⟩
  rcases f4 with f4 | ⟨f4, f5⟩
  · rcases e4 with e4 | ⟨e4, e5⟩
    · exact Or.inl (f4.trans e4)
    · exact Or.inr ⟨f4.trans e4, e5⟩
  · rcases e4 with e4 | ⟨e4, e5⟩
    · exact Or.inr ⟨f4, e4 ▸ f5⟩
    · rw [f5] at e4; cases e4

theorem Back.append (a : List Cis) (c : Cis) (h : c.state = .configuration) : Back a (a ++ [c]) := by
  intro x hx hl
  rcases List.mem_append.1 hx with hx | hx
  · exact .self hx
  · rw [List.mem_singleton] at hx; subst hx
    rcases hl with hl | hl | hl <;> rw [h] at hl <;> cases hl

theorem Back.map (a : List Cis) (f : Cis → Cis) (h : ∀ c ∈ a, (f c).Live → From a (f c)) : Back a (a.map f) := by
  intro x hx hl
  obtain ⟨c, hc, rfl⟩ := List.mem_map.1 hx
  exact h c hc hl

theorem Back.update (a : List Cis) (h0 : Nat) (f : Cis → Cis)
    (h : ∀ c ∈ a, c.handle = h0 → (f c).Live → From a (f c)) : Back a (updateCis a h0 f) := by
  apply Back.map
  intro c hc
  split
  · rename_i e; exact h c hc e
  · exact fun _ => .self hc

theorem not_live {c : Cis} (h : c.state = .configuration ∨ c.state = .connected) : ¬ c.Live := by
  rintro (hl | hl | hl) <;> rcases h with h | h <;> rw [h] at hl <;> cases hl

theorem configureCises_back {k : Nat} {cs : List NewCis} {s s' : State} {hs : List Nat}
    (h : configureCises k cs s = .ok (s', hs)) : Back s.cises s'.cises := by
  induction cs generalizing s hs with
  | nil => cases h; exact .refl _
  | cons c cs ih =>
    simp only [configureCises] at h
    split at h
    · cases h
    · rename_i cises h0 hn
      split at h
      · cases h
      · rename_i hc
        cases h
        refine .trans ?_ (ih hc)
        rcases newCis_cases hn with ⟨rfl, -⟩ | ⟨rfl, -⟩
        · exact .refl _
        · exact .append _ _ rfl

/-- The parameters of a request, as the peripheral stores them. -/
def CisReq.params (r : CisReq) : CisParameters :=
  ⟨0, 0, r.phyC, r.phyP, r.nse, r.bnC, r.bnP, r.ftC, r.ftP, r.maxPduC, r.maxPduP, r.maxSduC, r.maxSduP,
    r.sduIntervalC, r.sduIntervalP, r.isoInterval, r.subInterval, r.framed ≠ 0⟩

theorem step_back {env : Env} {s s' : State} {op : Op} {outs : List Out} (hi : Inv s) (ho : op.starts = false)
    (h : step env s op = .ok (s', outs)) :
    Back s.cises s'.cises ∨
    ∃ acl q c, op = .llcp acl (.cisReq q) ∧ outs = [.event (.cisRequest acl c.handle q.cigId q.cisId)] ∧
      s'.cises = s.cises ++ [c] ∧ c.role = .peripheral ∧ c.acl = some acl ∧ c.params = some q.params ∧
      c.state = .pendingAccept ∧ ∀ x ∈ s.cises, x.handle ≠ c.handle := by
  cases op with
  | addLink acl role =>
    simp only [step, addLink] at h
    split at h
    · cases h
    · cases h; exact Or.inl (.refl _)
  | removeLink acl reason =>
    simp only [step, removeLink] at h
    split at h
    · cases h
    · cases h
      left
      refine .trans (.sub (fun c hc => (List.mem_filter.1 hc).1)) (.map _ _ ?_)
      intro c hc hl
      split
      · rename_i e
        rw [if_pos e] at hl
        exact absurd hl (not_live (Or.inl rfl))
      · exact .self hc
  | hci c =>
    left
    cases c with
    | createCis => cases ho
    | malformed => cases h
    | setCig =>
      simp only [step, runCmd, setCig] at h
      repeat' split at h
      all_goals first
        | (cases h; done)
        | (obtain ⟨rfl, rfl⟩ := answer_ok h; exact .refl _)
        | (rename_i hcfg
           obtain ⟨rfl, rfl⟩ := answer_ok h
           have := configureCises_back hcfg
           exact this)
    | setCigTest =>
      simp only [step, runCmd, setCigTest] at h
      repeat' split at h
      all_goals first
        | (cases h; done)
        | (obtain ⟨rfl, rfl⟩ := answer_ok h; exact .refl _)
        | (rename_i hcfg
           obtain ⟨rfl, rfl⟩ := answer_ok h
           have := configureCises_back hcfg
           exact this)
    | removeCig k =>
      simp only [step, runCmd, removeCig] at h
      repeat' split at h
      all_goals
        obtain ⟨rfl, rfl⟩ := answer_ok h
        first
          | exact .refl _
          | exact .sub (fun c hc => (List.mem_filter.1 hc).1)
    | acceptCis x =>
      simp only [step, runCmd, acceptCis] at h
      split at h
      · obtain ⟨rfl, rfl⟩ := answer_ok h; exact .refl _
      · rename_i c hf
        split at h
        · obtain ⟨rfl, rfl⟩ := answer_ok h; exact .refl _
        · split at h
          · obtain ⟨rfl, rfl⟩ := answer_ok h; exact .refl _
          · rename_i hst
            split at h
            · cases h
            · cases h
              refine .update _ _ _ ?_
              intro c' hm' hh _
              obtain ⟨hm, hh2⟩ := findCis_some hf
              have := eq_of_handle hi.ids hm' hm (hh.trans hh2.symm)
              subst this
              exact ⟨c', hm', rfl, rfl, rfl, Or.inr ⟨Decidable.byContradiction hst, rfl⟩⟩
    | rejectCis x e =>
      simp only [step, runCmd, rejectCis] at h
      repeat' split at h
      all_goals first
        | (obtain ⟨rfl, rfl⟩ := answer_ok h; exact .refl _)
        | (cases h; exact .sub (fun c hc => (List.mem_filter.1 hc).1))
        | (cases h; done)
    | setupPath a b c d =>
      simp only [step, runCmd, setupPath] at h
      repeat' split at h
      all_goals
        obtain ⟨rfl, rfl⟩ := answer_ok h
        first
          | exact .refl _
          | (refine .update _ _ _ ?_
             intro c hc _ _
             split <;> exact ⟨c, hc, rfl, rfl, rfl, Or.inl rfl⟩)
    | removePath a b c =>
      simp only [step, runCmd, removePath] at h
      repeat' split at h
      all_goals
        obtain ⟨rfl, rfl⟩ := answer_ok h
        first
          | exact .refl _
          | (refine .update _ _ _ ?_
             intro c hc _ _
             exact ⟨c, hc, rfl, rfl, rfl, Or.inl rfl⟩)
    | disconnect x r =>
      simp only [step, runCmd, disconnect] at h
      split at h
      · obtain ⟨rfl, rfl⟩ := answer_ok h; exact .refl _
      · split at h
        · obtain ⟨rfl, rfl⟩ := answer_ok h; exact .refl _
        · split at h
          · cases h
          · cases h
            simp only
            split
            · refine .update _ _ _ ?_
              intro c' _ _ hl
              exact absurd hl (not_live (Or.inl rfl))
            · exact .sub (fun c hc => (List.mem_filter.1 hc).1)
    | createBig b a n i m l p =>
      simp only [step, runCmd] at h
      rcases createBig_cases (env := env) (s := s) (b := b) (a := a) (n := n) (i := i) (m := m) (l := l) (p := p)
        with ⟨e, he, hx⟩ | ⟨-, -, hx⟩
      · rw [hx] at h; cases h; exact .refl _
      · rw [hx] at h
        split at h
        · cases h
        · cases h; exact .refl _
    | terminateBig b r =>
      simp only [step, runCmd, terminateBig] at h
      repeat' split at h
      all_goals first
        | (obtain ⟨rfl, rfl⟩ := answer_ok h; exact .refl _)
        | (cases h; exact .refl _)
  | llcp acl p =>
    cases p with
    | cisReq r =>
      simp only [step, runPdu, cisReq] at h
      split at h
      · cases h
      · rename_i hn
        cases h
        exact Or.inr ⟨acl, r, _, rfl, rfl, rfl, rfl, rfl, rfl, rfl, (newCisHandle_some hn).2⟩
    | cisRsp => cases ho
    | rejectExtInd => cases ho
    | cisInd a b =>
      left
      simp only [step, runPdu, cisInd] at h
      split at h
      · cases h; exact .refl _
      · split at h
        · cases h
        · split at h
          · cases h
          · obtain ⟨rfl, rfl⟩ := send_ok h
            refine .update _ _ _ ?_
            intro c' _ _ hl
            exact absurd hl (not_live (Or.inr rfl))
    | terminateInd a b e =>
      left
      simp only [step, runPdu, terminateInd] at h
      split at h
      · cases h; exact .refl _
      · split at h
        · cases h
          exact .sub (fun c hc => (List.mem_filter.1 hc).1)
        · cases h
    | other => cases h
    | malformed => cases h
  | rehash order =>
    left
    simp only [step] at h
    cases h
    split
    · rename_i hp
      have hp := List.isPerm_iff.1 hp
      exact .sub (fun c hc => hp.mem_iff.1 hc)
    · exact .refl _

/-- The request carries the parameters. -/
structure Matches (p : CisParameters) (q : CisReq) : Prop where
  phyC : p.phyC = q.phyC
  phyP : p.phyP = q.phyP
  nse : p.nse = q.nse
  bnC : p.bnC = q.bnC
  bnP : p.bnP = q.bnP
  ftC : p.ftC = q.ftC
  ftP : p.ftP = q.ftP
  maxPduC : p.maxPduC = q.maxPduC
  maxPduP : p.maxPduP = q.maxPduP
  sduIntervalC : p.sduIntervalC = q.sduIntervalC
  sduIntervalP : p.sduIntervalP = q.sduIntervalP
  isoInterval : p.isoInterval = q.isoInterval
  framed : p.framed = decide (q.framed ≠ 0)

theorem params_matches (q : CisReq) : Matches q.params q :=
  ⟨rfl, rfl, rfl, rfl, rfl, rfl, rfl, rfl, rfl, rfl, rfl, rfl, rfl⟩

theorem cisParameters_group {g : CigConfig} {c : CisConfig} {p : CisParameters} (h : cisParameters g c = .ok p) :
    p.ftC = g.ftC ∧ p.ftP = g.ftP ∧ p.sduIntervalC = g.sduIntervalC ∧ p.sduIntervalP = g.sduIntervalP ∧
      p.isoInterval = g.isoInterval ∧ p.framed = g.framed := by
  unfold cisParameters at h
  split at h
  · split at h
    · cases h
    · cases h; exact ⟨rfl, rfl, rfl, rfl, rfl, rfl⟩
  · cases h

theorem dequeue_back {s s' : State} {outs : List Out} (h : dequeue s = .ok (s', outs)) :
    (Back s.cises s'.cises ∧ outs = []) ∨
    (∃ r p q c₀, s.requests = r :: s'.requests ∧ outs = [.llcp r.acl (.cisReq q)] ∧ q.cigId = r.cigId ∧
      q.cisId = r.cisId ∧ Matches p q ∧ findCis s.cises r.handle = some c₀ ∧
      ∀ c' ∈ s'.cises, c'.Live → (From s.cises c' ∧ c'.handle ≠ r.handle) ∨
        (∃ c ∈ s.cises, c.ident = c'.ident ∧ c.handle = r.handle ∧ c'.acl = some r.acl ∧ c'.params = some p ∧
          c'.state = .pendingRsp)) := by
  unfold dequeue at h
  split at h
  · cases h; exact Or.inl ⟨.refl _, rfl⟩
  · rename_i r rest hr
    split at h
    · rename_i c g hc hg
      split at h
      · cases h
      · rename_i p hp
        split at h
        · cases h
        · rename_i hn
          obtain ⟨rfl, rfl⟩ := send_ok h
          right
          obtain ⟨g1, g2, g3, g4, g5, g6⟩ := cisParameters_group hp
          obtain ⟨c₀, hc₀⟩ := Option.ne_none_iff_exists'.1 (by simpa using hn)
          refine ⟨r, p, _, c₀, hr, rfl, rfl, rfl, ⟨rfl, rfl, rfl, rfl, rfl, g1, g2, rfl, rfl, g3, g4, g5, ?_⟩, hc₀, ?_⟩
          · rw [g6]; cases g.framed <;> rfl
          · intro c' hc' hl
            obtain ⟨c₁, hm, ⟨h1, rfl⟩ | ⟨h1, rfl⟩⟩ := mem_updateCis hc'
            · exact Or.inr ⟨c₁, hm, rfl, h1, rfl, rfl, rfl⟩
            · exact Or.inl ⟨.self hm, h1⟩
    · cases h

/-- The operations that may start the procedure of a CIS, in one step that changes no parameters and one that takes
the next request from the queue. -/
theorem start_back {env : Env} {s s' : State} {op : Op} {outs : List Out} (ho : op.starts = true)
    (h : step env s op = .ok (s', outs)) :
    (s' = s ∧ outs.countP Out.isCisReq = 0) ∨
    (∃ s1 o1 o2 o3, outs = o1 ++ o2 ++ o3 ∧ o1.countP Out.isCisReq = 0 ∧ o3.countP Out.isCisReq = 0 ∧
      dequeue s1 = .ok (s', o2) ∧ Back s.cises s1.cises ∧ (∀ c ∈ s1.cises, ∃ x ∈ s.cises, x.ident = c.ident) ∧
      (s1.requests = s.requests ∨
        ∃ cs, op = .hci (.createCis cs) ∧ checkCreates s [] cs = .ok s1.requests ∧ s1.cises = s.cises)) := by
  cases op with
  | hci c =>
    cases c <;> first | (cases ho; done) | skip
    rename_i cs
    simp only [step, runCmd, createCis] at h
    split at h
    · obtain ⟨rfl, rfl⟩ := answer_ok h; exact Or.inl ⟨rfl, rfl⟩
    · rename_i rs hrs
      split at h
      · obtain ⟨rfl, rfl⟩ := answer_ok h; exact Or.inl ⟨rfl, rfl⟩
      · split at h
        · obtain ⟨rfl, rfl⟩ := answer_ok h; exact Or.inl ⟨rfl, rfl⟩
        · split at h
          · cases h
          · rename_i cigs hl
            split at h
            · cases h
            · rename_i s2 o2 hd
              cases h
              exact Or.inr ⟨_, [], o2, [.event (.createCisStatus success)], by simp, rfl, rfl, hd, .refl _,
                fun c hc => ⟨c, hc, rfl⟩, Or.inr ⟨cs, rfl, hrs, rfl⟩⟩
  | llcp acl p =>
    cases p <;> first | (cases ho; done) | skip
    · simp only [step, runPdu, cisRsp] at h
      split at h
      · cases h; exact Or.inl ⟨rfl, rfl⟩
      · rename_i c ha
        split at h
        · cases h
        · rename_i p _
          split at h
          · cases h
          · rename_i e he
            split at h
            · cases h
            · rename_i s2 o2 hd
              obtain ⟨rfl, rfl⟩ := send_ok h
              refine Or.inr ⟨_, _, o2, [], by rw [List.append_nil], rfl, rfl, hd, ?_, ?_, Or.inl rfl⟩
              · refine .update _ _ _ ?_
                intro c' _ _ hl
                exact absurd hl (not_live (Or.inr rfl))
              · intro x hx
                obtain ⟨c₁, hm, ⟨h1, rfl⟩ | ⟨h1, rfl⟩⟩ := mem_updateCis hx
                · exact ⟨c₁, hm, rfl⟩
                · exact ⟨_, hm, rfl⟩
    · rename_i op' e'
      simp only [step, runPdu, rejectExtInd] at h
      split at h
      · cases h
      · split at h
        · cases h; exact Or.inl ⟨rfl, rfl⟩
        · rename_i c ha
          split at h
          · cases h
          · rename_i s2 o2 hd
            cases h
            refine Or.inr ⟨_, [.event (.cisEstablished (.failed remoteUserTerminated c.handle))], o2, [], by simp,
              rfl, rfl, hd, ?_, ?_, Or.inl rfl⟩
            · refine .update _ _ _ ?_
              intro c' _ _ hl
              exact absurd hl (not_live (Or.inl rfl))
            · intro x hx
              obtain ⟨c₁, hm, ⟨h1, rfl⟩ | ⟨h1, rfl⟩⟩ := mem_updateCis hx
              · exact ⟨c₁, hm, rfl⟩
              · exact ⟨_, hm, rfl⟩
  | _ => cases ho

/-! ## The last request sent -/

theorem lastReqIn_none {a b : Nat} {o : List Out} (h : o.countP Out.isCisReq = 0) : lastReqIn a b o = none := by
  induction o with
  | nil => rfl
  | cons x o ih =>
    rw [List.countP_cons] at h
    have ih := ih (by omega)
    cases x with
    | event e => exact ih
    | llcp acl p => cases p <;> first | exact ih | (simp [Out.isCisReq] at h)

theorem lastReqIn_append (a b : Nat) (o1 o2 : List Out) :
    lastReqIn a b (o1 ++ o2) = (lastReqIn a b o2).or (lastReqIn a b o1) := by
  induction o1 with
  | nil => simp [lastReqIn]
  | cons x o ih =>
    cases x with
    | event e => exact ih
    | llcp acl p =>
      cases p <;> first | exact ih | skip
      simp only [List.cons_append, lastReqIn, ih]
      cases lastReqIn a b o2 <;> simp

theorem lastReqIn_one (a b acl : Nat) (q : CisReq) :
    lastReqIn a b [.llcp acl (.cisReq q)] = if q.cigId = a ∧ q.cisId = b then some q else none := rfl

theorem lastSent_snoc (a b : Nat) (tr : List (Op × List Out)) (op : Op) (outs : List Out) :
    lastSent a b (tr ++ [(op, outs)]) = (lastReqIn a b outs).or (lastSent a b tr) := by
  unfold lastSent
  rw [List.flatMap_append, lastReqIn_append]
  simp

theorem lastReceived_snoc (h : Nat) (tr : List (Op × List Out)) (op : Op) (outs : List Out) :
    lastReceived h (tr ++ [(op, outs)]) = lastReceivedRev h ((op, outs) :: tr.reverse) := by
  unfold lastReceived
  rw [List.reverse_append]
  rfl

end Verif.Iso
