import Verif.Iso.SpecRefuse
import Verif.Iso.PropsCrash
import Verif.Iso.CreateLemmas
import Verif.Iso.FrameLemmas

/-! # C105: isochronous commands are refused for the stated reasons -/
namespace Verif.Iso

open Verif.Le (mapFind mapSet mapErase)

theorem firstOf_append (a b : List Reason) : firstOf (a ++ b) = (firstOf a).or (firstOf b) := by
  induction a with
  | nil => rfl
  | cons x xs ih =>
    obtain ⟨p, n⟩ := x
    cases p <;> simp [firstOf, ih]

theorem and_sup (p m : Nat) (l : List Nat) (hl : ∀ q ≤ m, (¬ (q = 0) ∧ q &&& m = q) ↔ q ∈ l) (hm : ∀ q ∈ l, q ≤ m) :
    (¬ p = 0 ∧ p &&& m = p) ↔ p ∈ l := by
  constructor
  · intro h
    have : p ≤ m := by rw [← h.2]; exact Nat.and_le_right
    exact (hl p this).1 h
  · intro h; exact (hl p (hm p h)).2 h

theorem phy_choice (env : Env) (p : Nat) : (¬ p = 0 ∧ p &&& supportedPhys env = p) ↔ p ∈ phyChoices env.le2m env.leCoded := by
  unfold supportedPhys
  cases env.le2m <;> cases env.leCoded <;> exact and_sup p _ _ (by decide) (by decide)

theorem checkCis_eq (env : Env) (s : State) (k : Nat) (c : NewCis) : checkCis env s k c = firstOf (cisReasons env s k c) := by
  have hC := phy_choice env c.config.phyC
  have hP := phy_choice env c.config.phyP
  have hf : s.cises.find? (fun o => o.cisId = c.cisId ∧ o.cigId = k ∧ o.role = .central) = s.stream k c.cisId := rfl
  simp only [checkCis, hf, cisReasons, firstOf, ← hC, ← hP, unsupportedParameter, commandDisallowed, invalidParameters]
  have ho : ∀ f : Cis → Bool, ((s.stream k c.cisId).map f).getD false = (s.stream k c.cisId).elim false f := by
    intro f; cases s.stream k c.cisId <;> rfl
  simp only [ho]
  generalize (s.stream k c.cisId).elim false (·.pathC) = pc
  generalize (s.stream k c.cisId).elim false (·.pathP) = pp
  by_cases h1 : c.config.phyC = 0 <;> by_cases h2 : c.config.phyP = 0 <;> by_cases h3 : c.config.phyC &&& supportedPhys env = c.config.phyC <;>
    by_cases h4 : c.config.phyP &&& supportedPhys env = c.config.phyP <;> simp [h1, h2, h3, h4] <;>
    (cases pc <;> cases pp <;> by_cases h5 : c.config.maxSduC = 0 <;> by_cases h6 : c.config.maxSduP = 0 <;> simp [h5, h6] <;>
      (try (refine ite_congr (propext ?_) (fun _ => rfl) (fun _ => rfl); omega)))

theorem checks_eq (env : Env) (s : State) (k : Nat) (cs : List NewCis) :
    cs.findSome? (checkCis env s k) = firstOf (cs.flatMap (cisReasons env s k)) := by
  induction cs with
  | nil => rfl
  | cons c cs ih =>
    rw [List.flatMap_cons, firstOf_append, ← ih, List.findSome?_cons, checkCis_eq]
    cases firstOf (cisReasons env s k c) <;> rfl

theorem configures_eq (s : State) (k : Nat) (cs : List NewCis) (size : CisConfig → Nat) : configures s k cs size = carries s k cs size := by
  have e1 : ∀ (a b : Nat), decide (a ≠ b) = (a != b) := by intro a b; by_cases h : a = b <;> simp [h]
  have e2 : ∀ (a b : Nat), decide (a = b) = (a == b) := by intro a b; by_cases h : a = b <;> simp [h]
  simp only [configures, carries, e1, e2]

theorem checkCig_eq (env : Env) (s : State) (k sduC sduP : Nat) (cs : List NewCis) :
    checkCig env s k sduC sduP cs = firstOf (groupReasons env s k sduC sduP cs) := by
  simp only [checkCig, groupReasons, firstOf_append, checks_eq, configures_eq]
  have hl : (¬ ((mapFind s.cigs k).map (·.configurable)).getD true = true) ↔ (mapFind s.cigs k).elim false (fun g => !g.configurable) = true := by
    cases mapFind s.cigs k <;> simp
  simp only [hl]
  by_cases h1 : (mapFind s.cigs k).elim false (fun g => !g.configurable) = true
  · simp [firstOf, h1, commandDisallowed]
  · simp only [h1, firstOf]
    cases firstOf (cs.flatMap (cisReasons env s k)) with
    | some e => rfl
    | none =>
      simp only [Option.or, invalidParameters, Bool.false_eq_true, if_false]
      refine ite_congr (propext ?_) (fun _ => rfl) (fun _ => rfl)
      cases carries s k cs (·.maxSduC) <;> cases carries s k cs (·.maxSduP) <;> simp <;> omega

theorem common_eq {a b n : Nat} (h : commonSduInterval a b = .ok n) : n = Nat.lcm (if a = 0 then 1 else a) (if b = 0 then 1 else b) := by
  simp only [commonSduInterval] at h
  by_cases ha : a = 0 <;> by_cases hb : b = 0
  · simp [ha, hb] at h
  · simp [ha, hb] at h ⊢; exact h.symm
  · simp [ha, hb] at h ⊢; exact h.symm
  · simp only [ha, hb, false_and, if_false, lcmU32] at h ⊢
    split at h
    · cases h; rfl
    · cases h

theorem interval_none {sduC sduP : Nat} {framed : Bool} {lC lP : Nat} {r : Option Nat}
    (h : isoInterval sduC sduP framed (lC * 1000) (lP * 1000) = .ok r) : r.isNone = noInterval sduC sduP framed lC lP := by
  simp only [isoInterval] at h
  cases framed
  · simp only [Bool.false_eq_true, if_false] at h
    split at h
    · cases h
    · rename_i n hn
      have hn := common_eq hn
      simp only [lcmU32] at h
      by_cases hu : Nat.lcm 1250 n < u32
      · rw [if_pos hu] at h
        simp only [unframedInterval] at h
        have hs : Nat.lcm 1250 n = shortest sduC sduP := by rw [hn]; rfl
        rw [hs] at h
        split at h
        · cases h
        · have key : (shortest sduC sduP / 1250 ≤ 65535 ∧ (sduC = 0 ∨ 2 * shortest sduC sduP - sduC ≤ lC * 1000) ∧
              (sduP = 0 ∨ 2 * shortest sduC sduP - sduP ≤ lP * 1000)) ↔ noInterval sduC sduP false lC lP = false := by
            simp only [noInterval, Bool.not_false, Bool.true_and, Bool.or_eq_false_iff, Bool.and_eq_false_iff, decide_eq_false_iff_not, bne_eq_false_iff_eq]
            omega
          split at h
          · rename_i hk
            cases h; exact (key.1 hk).symm
          · rename_i hk
            cases h
            have : noInterval sduC sduP false lC lP ≠ false := fun e => hk (key.2 e)
            simpa using this.symm
      · rw [if_neg hu] at h; cases h
  · simp only [if_true] at h
    cases h; rfl

theorem creates_eq (s : State) (cs : List (Nat × Nat)) : ∀ earlier : List CisRequest,
    match checkCreates s earlier cs with
    | .error e => firstOf (createReasons s (earlier.map (·.handle)) cs) = some e
    | .ok rs => firstOf (createReasons s (earlier.map (·.handle)) cs) = none ∧
        ∃ more, rs = earlier ++ more ∧ List.Forall₂ (fun (p : Nat × Nat) (r : CisRequest) => r.handle = p.1 ∧ r.acl = p.2 ∧
          ∃ c, s.cis p.1 = some c ∧ c.state = .configuration ∧ r.cigId = c.cigId ∧ r.cisId = c.cisId) cs more := by
  induction cs with
  | nil => intro earlier; exact ⟨rfl, [], by simp, .nil⟩
  | cons x rest ih =>
    intro earlier
    obtain ⟨h, acl⟩ := x
    have hf : findCis s.cises h = s.cis h := rfl
    simp only [checkCreates, checkCreate, createReasons, hf]
    cases ha : mapFind s.acls acl with
    | none => simp [firstOf, unknownConnection]
    | some role =>
      cases role with
      | peripheral => simp [firstOf, invalidParameters]
      | central =>
        cases hc : s.cis h with
        | none => simp [firstOf, unknownConnection]
        | some c =>
          by_cases hst : c.state = .configuration
          · by_cases hm : (earlier.map (·.handle)).contains h = true
            · have : (earlier.any (fun r => r.handle = h)) = true := by
                simp only [List.contains_iff_mem, List.mem_map] at hm
                obtain ⟨r, hr, hrr⟩ := hm
                exact List.any_eq_true.2 ⟨r, hr, by simpa using hrr⟩
              have hst' : (c.state != .configuration) = false := by simp [hst]
              simp only [List.cons_append, List.nil_append, firstOf, hst, invalidParameters, this, hm, hst', Option.elim_some, ne_eq, not_true_eq_false, if_false,
                if_true, Option.isNone_some, Bool.false_eq_true]
              rfl
            · have : (earlier.any (fun r => r.handle = h)) = false := by
                rw [Bool.eq_false_iff]
                intro hx
                obtain ⟨r, hr, hrr⟩ := List.any_eq_true.1 hx
                exact hm (by simp only [List.contains_iff_mem, List.mem_map]; exact ⟨r, hr, by simpa using hrr⟩)
              have ihe := ih (earlier ++ [{ handle := h, acl := acl, cigId := c.cigId, cisId := c.cisId }])
              have hmf : (earlier.map (·.handle)).contains h = false := by simpa using hm
              have hfo : firstOf (createReasons s (earlier.map (·.handle)) ((h, acl) :: rest)) = firstOf (createReasons s (earlier.map (·.handle) ++ [h]) rest) := by
                have hst' : (c.state != .configuration) = false := by simp [hst]
                simp only [createReasons, List.cons_append, List.nil_append, firstOf, ha, hc, hmf, hst', Option.elim_some, if_false, Option.isNone_some,
                  Bool.false_eq_true]
                rfl
              simp only [createReasons, ha, hc] at hfo
              rw [hfo]
              simp only [hst, this, ne_eq, not_true_eq_false, if_false, Bool.false_eq_true]
              rw [List.map_append] at ihe
              cases hcc : checkCreates s (earlier ++ [{ handle := h, acl := acl, cigId := c.cigId, cisId := c.cisId }]) rest with
              | error e => rw [hcc] at ihe; exact ihe
              | ok rs =>
                rw [hcc] at ihe
                obtain ⟨h1, more, h2, h3⟩ := ihe
                exact ⟨h1, { handle := h, acl := acl, cigId := c.cigId, cisId := c.cisId } :: more, by rw [h2]; simp, .cons ⟨rfl, rfl, c, hc, hst, rfl, rfl⟩ h3⟩
          · simp [firstOf, hst, connectionAlreadyExists]

/-- What a command that returns does, given the reasons to refuse it. -/
def Outcome (env : Env) (s : State) (c : Cmd) (r : Result) : Prop :=
  ∀ s' outs, r = .ok (s', outs) →
    (∀ code, firstOf (reasons env s c) = some code → s' = s ∧ outs = [.event (reply code c)]) ∧
    (firstOf (reasons env s c) = none → Accepted s c s' outs)

theorem out_refuse {env : Env} {s : State} {c : Cmd} {code : Nat} {e : Event} (h : firstOf (reasons env s c) = some code) (he : e = reply code c) :
    Outcome env s c (answer s e) := by
  intro s' outs hr
  simp only [answer, Except.ok.injEq, Prod.mk.injEq] at hr
  refine ⟨?_, fun hn => ?_⟩
  · intro code' hc
    rw [h] at hc; cases hc
    exact ⟨hr.1.symm, by rw [← hr.2, he]⟩
  · rw [h] at hn; cases hn

theorem out_error {env : Env} {s : State} {c : Cmd} {f : Fault} : Outcome env s c (.error f) := nofun

theorem out_ok {env : Env} {s s1 : State} {c : Cmd} {o : List Out} (h : firstOf (reasons env s c) = none) (ha : Accepted s c s1 o) :
    Outcome env s c (.ok (s1, o)) := by
  intro s' outs hr
  simp only [Except.ok.injEq, Prod.mk.injEq] at hr
  obtain ⟨rfl, rfl⟩ := hr
  refine ⟨fun code hc => ?_, fun _ => ha⟩
  rw [h] at hc; cases hc

@[simp] theorem out_in : (Direction.output == Direction.input) = false := rfl
@[simp] theorem in_in : (Direction.input == Direction.input) = true := rfl
@[simp] theorem cen_per : (Role.central == Role.peripheral) = false := rfl
@[simp] theorem per_per : (Role.peripheral == Role.peripheral) = true := rfl

theorem dequeue_first {s s' : State} {r : CisRequest} {rest : List CisRequest} {outs : List Out} (hr : s.requests = r :: rest)
    (h : dequeue s = .ok (s', outs)) : ∃ q, outs = [.llcp r.acl (.cisReq q)] ∧ q.cigId = r.cigId ∧ q.cisId = r.cisId := by
  simp only [dequeue, hr] at h
  split at h
  · split at h
    · cases h
    · split at h
      · cases h
      · obtain ⟨_, rfl⟩ := send_ok h
        exact ⟨_, rfl, rfl, rfl⟩
  · cases h

theorem alloc_length {b m : Nat} : ∀ (is : List Nat) (bises : List Bis) {bs : List Bis} {hs : List Nat},
    allocateBises b m is bises = some (bs, hs) → hs.length = is.length := by
  intro is
  induction is with
  | nil => intro bises bs hs h; cases h; rfl
  | cons i is ih =>
    intro bises bs hs h
    simp only [allocateBises] at h
    split at h
    · cases h
    · split at h
      · cases h
      · rename_i h' hs' hal
        cases h
        simp [ih _ hal]

theorem outcome (env : Env) (s : State) (c : Cmd) : Outcome env s c (runCmd env s c) := by
  cases c with
  | setCig k sduC sduP framed lC lP cs =>
    simp only [runCmd, setCig, checkCig_eq, configures_eq]
    have hr : firstOf (reasons env s (.setCig k sduC sduP framed lC lP cs)) = (firstOf (groupReasons env s k sduC sduP cs)).or
        (if carries s k cs (·.maxSduC) && !(5 ≤ lC && lC ≤ 4000) || carries s k cs (·.maxSduP) && !(5 ≤ lP && lP ≤ 4000) then some 0x12
         else if noInterval sduC sduP framed lC lP then some 0x11 else none) := by
      simp only [reasons, firstOf_append, firstOf]
    cases hg : firstOf (groupReasons env s k sduC sduP cs) with
    | some e => exact out_refuse (by rw [hr, hg]; rfl) rfl
    | none =>
      rw [hg, Option.none_or] at hr
      have hk : ((carries s k cs (·.maxSduC) = true ∧ ¬ (0x5 ≤ lC ∧ lC ≤ 0xfa0)) ∨ (carries s k cs (·.maxSduP) = true ∧ ¬ (0x5 ≤ lP ∧ lP ≤ 0xfa0))) ↔
          (carries s k cs (·.maxSduC) && !(5 ≤ lC && lC ≤ 4000) || carries s k cs (·.maxSduP) && !(5 ≤ lP && lP ≤ 4000)) = true := by
        cases carries s k cs (·.maxSduC) <;> cases carries s k cs (·.maxSduP) <;> simp <;> omega
      dsimp only
      split
      · rename_i hl
        rw [if_pos (hk.1 hl)] at hr
        exact out_refuse hr rfl
      · rename_i hl
        rw [if_neg (fun e => hl (hk.2 e))] at hr
        split
        · exact out_error
        · rename_i hi
          rw [← interval_none hi] at hr
          exact out_refuse hr rfl
        · rename_i iso hi
          rw [← interval_none hi] at hr
          split
          · exact out_error
          · exact out_ok hr ⟨_, rfl⟩
  | setCigTest k sduC sduP ftC ftP iso framed cs =>
    simp only [runCmd, setCigTest, checkCig_eq]
    cases hg : firstOf (groupReasons env s k sduC sduP cs) with
    | some e => exact out_refuse hg rfl
    | none =>
      dsimp only
      split
      · exact out_error
      · exact out_ok hg ⟨_, rfl⟩
  | removeCig k =>
    simp only [runCmd, removeCig]
    have hany : s.cises.any (fun c => c.role = .central && c.cigId = k && c.state ≠ .configuration) =
        s.cises.any (fun c => c.role == .central && c.cigId == k && c.state != .configuration) := by
      congr 1; funext c
      rw [Bool.eq_iff_iff]; simp
    rw [hany]
    split
    · rename_i h; exact out_refuse (by simp only [reasons, firstOf, h, if_true]; rfl) rfl
    · rename_i h
      split
      · rename_i h1; exact out_refuse (by simp only [reasons, firstOf, h, h1, if_true, if_false]; rfl) rfl
      · rename_i h1
        refine out_ok (by simp only [reasons, firstOf, h, h1, if_false, Bool.false_eq_true]) ⟨?_, rfl⟩
        congr 1
        · refine List.filter_congr fun c _ => ?_
          rw [decide_eq_decide]
          simp only [not_and, ne_eq]
          constructor
          · rintro (h | h) hh
            · exact absurd hh h
            · exact h
          · intro hh
            by_cases hc : c.role = .central
            · exact .inr (hh hc)
            · exact .inl hc
  | createCis cs =>
    simp only [runCmd, createCis]
    have hce := creates_eq s cs []
    cases hc : checkCreates s [] cs with
    | error e =>
      rw [hc] at hce
      exact out_refuse (by simp only [reasons, firstOf_append]; rw [show ([] : List CisRequest).map (·.handle) = [] from rfl] at hce; rw [hce]; rfl) rfl
    | ok rs =>
      rw [hc] at hce
      obtain ⟨h0, more, h1, h2⟩ := hce
      rw [show ([] : List CisRequest).map (·.handle) = [] from rfl] at h0
      rw [List.nil_append] at h1
      subst h1
      have hr : firstOf (reasons env s (.createCis cs)) = if !s.requests.isEmpty then some 0x0C else if !env.hostSupport then some 0x0C else none := by
        simp only [reasons, firstOf_append, h0, firstOf, Option.none_or]
      dsimp only
      split
      · rename_i hq
        exact out_refuse (by rw [hr, if_pos (by cases hx : s.requests <;> simp_all)]; rfl) rfl
      · rename_i hq
        rw [if_neg (by cases hx : s.requests <;> simp_all)] at hr
        split
        · rename_i hh
          exact out_refuse (by rw [hr, if_pos (by simpa using hh)]; rfl) rfl
        · rename_i hh
          rw [if_neg (by simpa using hh)] at hr
          split
          · exact out_error
          · split
            · exact out_error
            · rename_i s' outs hd
              refine out_ok hr ?_
              cases h2 with
              | nil => simp only [dequeue] at hd; cases hd; exact rfl
              | cons hx _ =>
                obtain ⟨hh1, hh2, c, hcc, _, hg, hi⟩ := hx
                obtain ⟨q, rfl, hq1, hq2⟩ := dequeue_first rfl hd
                exact ⟨q, c, by rw [hh2]; rfl, hcc, hq1.trans hg, hq2.trans hi⟩
  | acceptCis h =>
    have hf : findCis s.cises h = s.cis h := rfl
    simp only [runCmd, acceptCis, hf]
    cases hc : s.cis h with
    | none => exact out_refuse (by simp only [reasons, firstOf, hc]; rfl) rfl
    | some c =>
      dsimp only
      split
      · rename_i h1; exact out_refuse (by simp [reasons, firstOf, hc, h1]; rfl) rfl
      · rename_i h1
        split
        · rename_i h2; exact out_refuse (by simp [reasons, firstOf, hc, h2]; rfl) rfl
        · rename_i h2
          split
          · exact out_error
          · rename_i acl ha
            exact out_ok (by simp_all [reasons, firstOf]) ⟨c, acl, hc, ha, rfl, rfl⟩
  | rejectCis h reason =>
    have hf : findCis s.cises h = s.cis h := rfl
    simp only [runCmd, rejectCis, hf]
    cases hc : s.cis h with
    | none => exact out_refuse (by simp only [reasons, firstOf, hc]; rfl) rfl
    | some c =>
      dsimp only
      split
      · rename_i h1; exact out_refuse (by simp [reasons, firstOf, hc, h1]; rfl) rfl
      · rename_i h1
        split
        · rename_i h2; exact out_refuse (by simp [reasons, firstOf, hc, h2]; rfl) rfl
        · rename_i h2
          split
          · exact out_error
          · rename_i acl ha
            exact out_ok (by simp_all [reasons, firstOf]) ⟨c, acl, hc, ha, rfl, rfl⟩
  | setupPath h dir codec len =>
    have hf : findCis s.cises h = s.cis h := rfl
    have hb : s.bises.find? (fun b => b.handle = h) = s.bis h := rfl
    simp only [runCmd, setupPath, hf, hb]
    split
    · rename_i h1; exact out_refuse (by simp [reasons, firstOf, h1.1, h1.2]; rfl) rfl
    · rename_i h1
      have h1' : (len != 0 && codec == 3) = false := by
        rw [Bool.eq_false_iff]; simpa using h1
      cases hc : s.cis h with
      | some c =>
        have hr : firstOf (reasons env s (.setupPath h dir codec len)) = if (serves c (dir == .input) || (c.role == .peripheral && c.state == .pendingAccept)) then some 0x0C else none := by
          simp only [reasons, firstOf, h1', hc, Option.elim_some, Option.isNone_some, Bool.false_and, Bool.false_eq_true, if_false]
        have hp : (∃ b, c.pathC = b) := ⟨_, rfl⟩
        dsimp only
        repeat' split
        · rename_i h2
          refine out_refuse (hr.trans (if_pos ?_)) rfl
          obtain ⟨hp, hd⟩ := h2
          cases hrl : c.role <;> simp_all [serves, toPeripheral]
        · rename_i h2 h3
          refine out_refuse (hr.trans (if_pos ?_)) rfl
          obtain ⟨hp, hd⟩ := h3
          cases hrl : c.role <;> simp_all [serves, toCentral]
        · rename_i h2 h3 h4
          refine out_refuse (hr.trans (if_pos ?_)) rfl
          simp [h4.1, h4.2]
        · rename_i h2 h3 h4
          refine out_ok (hr.trans (if_neg ?_)) ⟨rfl, fun _ => ?_, fun e => by rw [hc] at e; cases e⟩
          · cases hrl : c.role <;> cases dir <;> simp_all [serves, toPeripheral, toCentral]
          · simp only [State.change, updateCis]
            congr 1
            refine List.map_congr_left fun x _ => ?_
            split
            · cases hrl : x.role <;> cases dir <;> simp [toPeripheral, Cis.path, hrl]
            · rfl
      | none =>
        dsimp only
        cases hbis : s.bis h with
        | none => exact out_refuse (by simp only [reasons, firstOf, h1', hc, hbis]; rfl) rfl
        | some b =>
          have hr : firstOf (reasons env s (.setupPath h dir codec len)) = if (dir == .output || b.dataPath) then some 0x0C else none := by
            simp [reasons, firstOf, h1', hc, hbis]
          dsimp only
          repeat' split
          · rename_i h2; exact out_refuse (hr.trans (if_pos (by simp [h2]))) rfl
          · rename_i h2 h3; exact out_refuse (hr.trans (if_pos (by simp [h3]))) rfl
          · rename_i h2 h3
            exact out_ok (hr.trans (if_neg (by simp [h2, h3]))) ⟨rfl, fun e => (by rw [hc] at e; cases e), fun _ => rfl⟩
  | removePath h input output =>
    have hf : findCis s.cises h = s.cis h := rfl
    have hb : s.bises.find? (fun b => b.handle = h) = s.bis h := rfl
    simp only [runCmd, removePath, hf, hb]
    cases hc : s.cis h with
    | some c =>
      have hr : firstOf (reasons env s (.removePath h input output)) = if ((input && !serves c true) || (output && !serves c false)) then some 0x0C else none := by
        simp only [reasons, firstOf, hc, Option.elim_some, Option.isNone_some, Bool.false_and, Bool.false_eq_true, if_false]
      dsimp only
      repeat' split
      · rename_i h2
        refine out_refuse (hr.trans (if_pos ?_)) rfl
        cases hrl : c.role <;> simp_all [serves, removesToPeripheral]
      · rename_i h2 h3
        refine out_refuse (hr.trans (if_pos ?_)) rfl
        cases hrl : c.role <;> simp_all [serves, removesToCentral]
      · rename_i h2 h3
        refine out_ok (hr.trans (if_neg ?_)) ⟨rfl, fun _ => ?_, fun e => by rw [hc] at e; cases e⟩
        · cases hrl : c.role <;> cases input <;> cases output <;> simp_all [serves, removesToPeripheral, removesToCentral]
        · simp only [State.change, updateCis]
          congr 1
          refine List.map_congr_left fun x _ => ?_
          split
          · cases hrl : x.role <;> cases input <;> cases output <;> simp [removesToPeripheral, removesToCentral, Cis.path, hrl] <;> (cases x; simp_all)
          · rfl
    | none =>
      dsimp only
      cases hbis : s.bis h with
      | none => exact out_refuse (by simp only [reasons, firstOf, hc, hbis]; rfl) rfl
      | some b =>
        have hr : firstOf (reasons env s (.removePath h input output)) = if (!b.dataPath || output) then some 0x0C else none := by
          simp [reasons, firstOf, hc, hbis]
        dsimp only
        split
        · rename_i h2; exact out_refuse (hr.trans (if_pos (by rcases h2 with h2 | h2 <;> simp [h2]))) rfl
        · rename_i h2
          refine out_ok (hr.trans (if_neg (by simpa using h2))) ⟨rfl, fun e => (by rw [hc] at e; cases e), fun _ => ?_⟩
          congr 1
          refine List.map_congr_left fun x _ => ?_
          cases input <;> simp
  | disconnect h reason =>
    have hf : findCis s.cises h = s.cis h := rfl
    simp only [runCmd, disconnect, hf]
    cases hc : s.cis h with
    | none => exact out_refuse (by simp only [reasons, firstOf, hc]; rfl) rfl
    | some c =>
      dsimp only
      split
      · rename_i h1; exact out_refuse (by simp [reasons, firstOf, hc, h1.1, h1.2]; rfl) rfl
      · rename_i h1
        split
        · exact out_error
        · rename_i acl ha
          refine out_ok ?_ ⟨c, acl, hc, ha, ?_, rfl⟩
          · have : c.state = .connected ∨ c.state = .pendingRsp := by
              by_cases hx : c.state = .connected
              · exact .inl hx
              · exact .inr (Decidable.of_not_not fun hy => h1 ⟨hx, hy⟩)
            rcases this with hx | hx <;> simp [reasons, firstOf, hc, hx]
          · split <;> rfl
  | createBig b a n i m l p =>
    simp only [runCmd, createBig]
    have ha1 : (s.bigs.any (fun x => x.bigHandle = b)) = s.bigs.any (fun x => x.bigHandle == b) := by
      congr 1
    have ha2 : (s.bigs.any (fun x => x.advertisingHandle = a)) = s.bigs.any (fun x => x.advertisingHandle == a) := by
      congr 1
    rw [ha1, ha2]
    have hr : firstOf (reasons env s (.createBig b a n i m l p)) = if 239 < b then some 0x12 else if s.bigs.any (fun x => x.bigHandle == b) then some 0x0C
        else if 239 < a then some 0x12 else if env.advertiser a ≠ some true then some 0x42 else if s.bigs.any (fun x => x.advertisingHandle == a) then some 0x42
        else if (!(1 ≤ n && n < 32) || !(255 ≤ i && i < 1048576) || !(1 ≤ m && m < 4096) || !(5 ≤ l && l ≤ 4000) || p == 0) then some 0x12 else none := by
      simp only [reasons, firstOf, decide_eq_true_eq, bne_iff_ne]; rfl
    by_cases h1 : 239 < b
    · rw [if_pos h1] at hr ⊢; exact out_refuse hr rfl
    rw [if_neg h1] at hr ⊢
    by_cases h2 : s.bigs.any (fun x => x.bigHandle == b) = true
    · rw [if_pos h2] at hr ⊢; exact out_refuse hr rfl
    rw [if_neg h2] at hr ⊢
    by_cases h3 : 239 < a
    · rw [if_pos h3] at hr ⊢; exact out_refuse hr rfl
    rw [if_neg h3] at hr ⊢
    by_cases h4 : env.advertiser a ≠ some true
    · rw [if_pos h4] at hr ⊢; exact out_refuse hr rfl
    rw [if_neg h4] at hr ⊢
    by_cases h5 : s.bigs.any (fun x => x.advertisingHandle == a) = true
    · rw [if_pos h5] at hr ⊢; exact out_refuse hr rfl
    rw [if_neg h5] at hr ⊢
    have hq : (!(1 ≤ n && n < 32) || !(255 ≤ i && i < 1048576) || !(1 ≤ m && m < 4096) || !(5 ≤ l && l ≤ 4000) || p == 0) = true ↔
        (¬ (1 ≤ n ∧ n ≤ 0x1f)) ∨ (¬ (0xff ≤ i ∧ i ≤ 0xfffff)) ∨ (¬ (1 ≤ m ∧ m ≤ 0xfff)) ∨ (¬ (5 ≤ l ∧ l ≤ 0xfa0)) ∨ p = 0 := by
      simp only [Bool.or_eq_true, Bool.not_eq_true', Bool.and_eq_false_iff, decide_eq_false_iff_not, beq_iff_eq]; omega
    by_cases h6 : (!(1 ≤ n && n < 32) || !(255 ≤ i && i < 1048576) || !(1 ≤ m && m < 4096) || !(5 ≤ l && l ≤ 4000) || p == 0) = true
    · rw [if_pos h6] at hr
      have h6 := hq.1 h6
      repeat' split
      all_goals first
        | exact out_refuse hr rfl
        | exact out_error
        | (exfalso; omega)
    · rw [if_neg h6] at hr
      have h6 : ¬ _ := fun e => h6 (hq.2 e)
      simp only [not_or] at h6
      rw [if_neg h6.1, if_neg h6.2.1, if_neg h6.2.2.1, if_neg h6.2.2.2.1, if_neg h6.2.2.2.2]
      split
      · exact out_error
      · rename_i hal
        exact out_ok hr ⟨_, by rw [alloc_length _ _ hal]; simp, rfl⟩
  | terminateBig b reason =>
    have hall : s.bigs.all (fun x => x.bigHandle != b) = !s.bigs.any (fun x => x.bigHandle = b) := by
      rw [Bool.eq_iff_iff]; simp
    simp only [runCmd, terminateBig]
    split
    · rename_i h1; exact out_refuse (by simp only [reasons, firstOf]; rw [if_pos (by simp; omega)]; rfl) rfl
    · rename_i h1
      have h1' : ¬ 240 ≤ b := by omega
      split
      · rename_i h2; exact out_refuse (by simp only [reasons, firstOf, h1', hall]; simp only [Bool.eq_false_iff.2 h2]; rfl) rfl
      · rename_i h2
        exact out_ok (by simp only [reasons, firstOf, h1', hall]; simp only [Decidable.of_not_not h2]; rfl) ⟨rfl, rfl⟩
  | malformed => exact out_error

/-- A refused command gets the code of the first reason that applies to it, and nothing else happens. -/
theorem C105_refused {env : Env} {s s' : State} {c : Cmd} {outs : List Out} {code : Nat} (h : step env s (.hci c) = .ok (s', outs))
    (hr : firstOf (reasons env s c) = some code) : s' = s ∧ outs = [.event (reply code c)] := (outcome env s c s' outs h).1 code hr

/-- A command to which no reason applies is carried out. -/
theorem C105_accepted {env : Env} {s s' : State} {c : Cmd} {outs : List Out} (h : step env s (.hci c) = .ok (s', outs))
    (hr : firstOf (reasons env s c) = none) : Accepted s c s' outs := (outcome env s c s' outs h).2 hr

/-- Some commands in the example state: the group exists, no stream waits for the peer, and a peer waits for an answer. -/
example : firstOf (reasons fullEnv exampleState (.removeCig 4)) = some 0x02 ∧ firstOf (reasons fullEnv exampleState (.removeCig 3)) = none ∧
    firstOf (reasons fullEnv exampleState (.acceptCis 0xE00)) = some 0x0C ∧ firstOf (reasons fullEnv exampleState (.acceptCis 0xE02)) = none ∧
    firstOf (reasons fullEnv exampleState (.createCis [(0xE00, 0x10), (0xE00, 0x10)])) = some 0x12 ∧
    firstOf (reasons fullEnv exampleState (.createCis [(0xE00, 0x10), (0xE01, 0x10)])) = none ∧
    firstOf (reasons fullEnv exampleState (.createBig 2 2 1 255 1 5 1)) = none ∧
    firstOf (reasons fullEnv exampleState exampleCig) = none ∧
    firstOf (reasons fullEnv exampleState (.setCig 4 10000 7500 false 5 5 [⟨1, { maxSduC := 100, maxSduP := 50, phyC := 1, phyP := 3 }⟩])) = some 0x11 := by
  decide +kernel

theorem known_eq (n : Nat) : n ∈ errorCodes ↔ n ∈ known := by
  constructor
  · intro h
    have : ∀ x ∈ errorCodes, x ∈ known := by decide
    exact this n h
  · intro h
    have : ∀ x ∈ known, x ∈ errorCodes := by decide
    exact this n h

theorem lost_eq (acl code : Nat) (l : List Cis) :
    l.filterMap (lostEvent acl code) = (l.filter (fun c => c.acl == some acl)).flatMap (lost code) := by
  induction l with
  | nil => rfl
  | cons c l ih =>
    rw [List.filterMap_cons, List.filter_cons]
    by_cases ha : c.acl = some acl
    · cases hs : c.state <;> simp [lostEvent, ha, hs, ih, lost, notEstablished, Established.failed]
    · simp [lostEvent, ha, ih]

/-- The loss of a connection is told for each stream on it, in the way its state demands, and for each request that waits for it. The
code is that of the loss, or 0x13 (remote user terminated) if the code of the loss has no name. -/
theorem C105_lost {env : Env} {s s' : State} {acl reason : Nat} {outs : List Out} (h : step env s (.removeLink acl reason) = .ok (s', outs)) :
    let code := if reason ∈ known then reason else 0x13
    outs = (s.cises.filter (fun c => c.acl == some acl)).flatMap (lost code) ++
        (s.requests.filter (fun r => r.acl = acl)).map (fun r => notEstablished code r.handle) ∧
      s'.cises = (s.cises.filter (fun c => c.role = .central ∨ c.acl ≠ some acl)).map
        (fun c => if c.acl = some acl then { c with acl := none, state := .configuration } else c) ∧
      s'.requests = s.requests.filter (fun r => r.acl ≠ acl) := by
  simp only [step, removeLink] at h
  split at h
  · cases h
  · simp only [removeAcl, Except.ok.injEq, Prod.mk.injEq, lost_eq] at h
    obtain ⟨rfl, rfl⟩ := h
    simp only [known_eq]
    exact ⟨rfl, trivial, trivial⟩

/-- A peer's refusal is told as 0x13, whatever the peer's code. -/
theorem C105_rejected {env : Env} {s s' : State} {acl error : Nat} {outs : List Out} {c : Cis}
    (hc : s.cises.find? (fun c => c.acl = some acl ∧ c.role = .central ∧ c.state = .pendingRsp) = some c)
    (h : step env s (.llcp acl (.rejectExtInd 31 error)) = .ok (s', outs)) :
    ∃ more, outs = notEstablished 0x13 c.handle :: more ∧ ∀ o ∈ more, ∃ a q, o = .llcp a (.cisReq q) := by
  have hw : awaitingRsp s acl = some c := hc
  simp only [step, runPdu, rejectExtInd, hw] at h
  split at h
  · cases h
  · split at h
    · cases h
    · rename_i s1 o1 hd
      cases h
      refine ⟨_, rfl, ?_⟩
      rcases dequeue_cases hd with ⟨-, -, rfl⟩ | ⟨r, rest, p, c, -, -, -, q, rfl, -⟩
      · intro o ho; cases ho
      · intro o ho; exact ⟨_, _, List.mem_singleton.1 ho⟩

/-- The end of a stream by the peer is told with the peer's code if that has a name; otherwise the controller aborts. -/
theorem C105_terminated (env : Env) (s : State) (acl k i error : Nat) (c : Cis)
    (hc : s.cises.find? (fun c => c.acl = some acl ∧ c.cigId = k ∧ c.cisId = i) = some c) :
    (error ∈ known → step env s (.llcp acl (.terminateInd k i error)) = .ok (s.drop c.handle, [.event (.disconnectionComplete c.handle error)])) ∧
    (error ∉ known → step env s (.llcp acl (.terminateInd k i error)) = .error .panic) := by
  simp only [step, runPdu, terminateInd, hc]
  constructor
  · intro h; rw [if_pos ((known_eq _).2 h)]; rfl
  · intro h; rw [if_neg (fun e => h ((known_eq _).1 e))]

/-! ## The request sent to the peer -/

theorem selectPhy_eq (n : Nat) : selectPhy n = if n ∈ [1, 2, 3, 4, 5, 6, 7] then .ok (preferred n) else .error .panic := by
  by_cases h : n ≤ 7
  · rcases n with _ | _ | _ | _ | _ | _ | _ | _ | n <;> first | rfl | omega
  · have : n ∉ [1, 2, 3, 4, 5, 6, 7] := by simp only [List.mem_cons, List.not_mem_nil, or_false]; omega
    rw [if_neg this]
    simp only [selectPhy]
    repeat' split
    all_goals first | rfl | omega

theorem burst_ok {n : Option Nat} {m k : Nat} (h : burstNumber n m = .ok k) : k = burst n m := by
  cases n with
  | some v => simp only [burstNumber] at h; cases h; rfl
  | none =>
    simp only [burstNumber] at h
    split at h
    · cases h; simp [burst, divCeil]
    · cases h

theorem burst_fits {n : Option Nat} {m : Nat} (h : burst n m < 16) : burstNumber n m = .ok (burst n m) := by
  cases n with
  | some v => rfl
  | none =>
    have : divCeil m 251 = burst none m := by simp [burst, divCeil]
    simp only [burstNumber, this]
    rw [if_pos (by omega)]

theorem dequeue_fits {s : State} {r : CisRequest} {rest : List CisRequest} {g : CigConfig} {c : CisConfig} (hr : s.requests = r :: rest)
    (hc : mapFind s.cisConfigs (r.cigId, r.cisId) = some c) (hg : mapFind s.cigs r.cigId = some g) (hx : (findCis s.cises r.handle).isSome) :
    (Fits g c → ∃ s', dequeue s = .ok (s', [.llcp r.acl (.cisReq (request r.cigId r.cisId g c))])) ∧ (¬ Fits g c → ∃ f, dequeue s = .error f) := by
  simp only [dequeue, hr, hc, hg, cisParameters, selectPhy_eq]
  constructor
  · rintro ⟨h1, h2, h3, h4, h5, h6, h7, h8, h9, h10⟩
    rw [burst_fits h9, burst_fits h10, if_pos h1, if_pos h2]
    have hz : c.nse.getD (max (burst c.bnC c.maxSduC) (burst c.bnP c.maxSduP)) = subevents c := rfl
    dsimp only
    simp only [hz]
    rw [if_neg h3]
    dsimp only
    rw [if_neg (by cases hq : findCis s.cises r.handle <;> simp_all)]
    simp only [send]
    rw [if_pos]
    · exact ⟨_, rfl⟩
    · simp only [List.all_cons, List.all_nil, Bool.and_true, Out.encodable, CisReq.encodable, Bool.and_eq_true, decide_eq_true_eq]
      refine ⟨⟨⟨⟨⟨⟨⟨?_, h4⟩, h5⟩, h6⟩, h7⟩, h8⟩, h9⟩, h10⟩
      split <;> omega
  · intro hn
    cases hd : dequeue s with
    | error f => simp only [dequeue, hr, hc, hg, cisParameters, selectPhy_eq] at hd; exact ⟨f, hd⟩
    | ok p =>
      exfalso
      obtain ⟨s', outs⟩ := p
      simp only [dequeue, hr, hc, hg, cisParameters, selectPhy_eq] at hd
      by_cases h1 : c.phyC ∈ [1, 2, 3, 4, 5, 6, 7]
      · by_cases h2 : c.phyP ∈ [1, 2, 3, 4, 5, 6, 7]
        · rw [if_pos h1, if_pos h2] at hd
          cases hb1 : burstNumber c.bnC c.maxSduC with
          | error f => rw [hb1] at hd; cases hd
          | ok b1 =>
            cases hb2 : burstNumber c.bnP c.maxSduP with
            | error f => rw [hb1, hb2] at hd; cases hd
            | ok b2 =>
              rw [hb1, hb2] at hd
              have e1 := burst_ok hb1
              have e2 := burst_ok hb2
              subst e1 e2
              have hz : c.nse.getD (max (burst c.bnC c.maxSduC) (burst c.bnP c.maxSduP)) = subevents c := rfl
              dsimp only at hd
              simp only [hz] at hd
              by_cases h3 : subevents c = 0
              · rw [if_pos h3] at hd; cases hd
              · rw [if_neg h3] at hd
                dsimp only at hd
                rw [if_neg (by cases hq : findCis s.cises r.handle <;> simp_all)] at hd
                simp only [send] at hd
                by_cases hall : ([Out.llcp r.acl (.cisReq (request r.cigId r.cisId g c))].all Out.encodable) = true
                · simp only [List.all_cons, List.all_nil, Bool.and_true, Out.encodable, CisReq.encodable, Bool.and_eq_true, decide_eq_true_eq, request] at hall
                  obtain ⟨⟨⟨⟨⟨⟨⟨_, h4⟩, h5⟩, h6⟩, h7⟩, h8⟩, h9⟩, h10⟩ := hall
                  exact hn ⟨h1, h2, h3, h4, h5, h6, h7, h8, h9, h10⟩
                · simp only [request] at hall
                  rw [if_neg hall] at hd; cases hd
        · rw [if_neg h2] at hd
          cases hb1 : burstNumber c.bnC c.maxSduC <;> cases hb2 : burstNumber c.bnP c.maxSduP <;> rw [hb1, hb2] at hd <;> (split at hd <;> simp_all)
      · rw [if_neg h1] at hd
        cases hb1 : burstNumber c.bnC c.maxSduC <;> cases hb2 : burstNumber c.bnP c.maxSduP <;> rw [hb1, hb2] at hd <;> (split at hd <;> simp_all)

theorem lock_all {rs : List CisRequest} : ∀ {cigs : List (Nat × CigConfig)}, (∀ r ∈ rs, (mapFind cigs r.cigId).isSome) → ∃ cigs', lockCigs rs cigs = some cigs' := by
  induction rs with
  | nil => intro cigs _; exact ⟨cigs, rfl⟩
  | cons r rs ih =>
    intro cigs h
    obtain ⟨g, hg⟩ := Option.isSome_iff_exists.1 (h r (by simp))
    simp only [lockCigs, hg]
    exact ih fun x hx => mapFind_isSome_mapSet _ _ _ _ (h x (by simp [hx]))

/-- When streams are created, the peer is asked at once for the first of them, with the parameters its group and it were given. If the
request does not fit, the controller aborts. -/
theorem C105_request {env : Env} {s : State} (hr : Reachable s) {h acl : Nat} {rest : List (Nat × Nat)}
    (hn : firstOf (reasons env s (.createCis ((h, acl) :: rest))) = none) :
    ∃ x c g, s.cis h = some x ∧ mapFind s.cisConfigs (x.cigId, x.cisId) = some c ∧ mapFind s.cigs x.cigId = some g ∧
      (Fits g c → ∃ s', step env s (.hci (.createCis ((h, acl) :: rest))) =
        .ok (s', [.llcp acl (.cisReq (request x.cigId x.cisId g c)), .event (.createCisStatus 0)])) ∧
      (¬ Fits g c → ∃ f, step env s (.hci (.createCis ((h, acl) :: rest))) = .error f) := by
  have hi := reachable_inv hr
  have hce := creates_eq s ((h, acl) :: rest) []
  simp only [reasons, firstOf_append] at hn
  cases hcc : checkCreates s [] ((h, acl) :: rest) with
  | error e =>
    rw [hcc] at hce
    rw [show ([] : List CisRequest).map (·.handle) = [] from rfl] at hce
    rw [hce] at hn; cases hn
  | ok rs =>
    rw [hcc] at hce
    obtain ⟨h0, more, h1, h2⟩ := hce
    rw [show ([] : List CisRequest).map (·.handle) = [] from rfl] at h0
    rw [List.nil_append] at h1
    subst h1
    rw [h0, Option.none_or] at hn
    simp only [firstOf] at hn
    have hq : s.requests = [] := by
      cases hx : s.requests with
      | nil => rfl
      | cons a b => simp [hx] at hn
    have hh : env.hostSupport = true := by
      cases hx : env.hostSupport with
      | true => rfl
      | false => simp [hq, hx] at hn
    have hconf : ∀ r ∈ rs, ∃ x, findCis s.cises r.handle = some x ∧ r.cigId = x.cigId ∧ r.cisId = x.cisId ∧
        (mapFind s.cisConfigs (x.cigId, x.cisId)).isSome ∧ (mapFind s.cigs x.cigId).isSome := by
      intro r hrm
      obtain ⟨p, hp, hpr⟩ : ∃ p ∈ (h, acl) :: rest, r.handle = p.1 ∧ r.acl = p.2 ∧
          ∃ c, s.cis p.1 = some c ∧ c.state = .configuration ∧ r.cigId = c.cigId ∧ r.cisId = c.cisId := by
        clear hcc h0 hn
        generalize (h, acl) :: rest = l at h2
        induction h2 with
        | nil => cases hrm
        | cons hx _ ih =>
          rename_i a b la lb _
          rcases List.mem_cons.1 hrm with rfl | hm
          · exact ⟨_, by simp, hx⟩
          · obtain ⟨p, hp, hq⟩ := ih hm
            exact ⟨p, by simp [hp], hq⟩
      obtain ⟨e1, e2, x, hx, hst, e3, e4⟩ := hpr
      have hx' : findCis s.cises p.1 = some x := hx
      have ok := hi.cises x (findCis_some hx').1
      have hrole : x.role = .central := by
        cases hrl : x.role with
        | central => rfl
        | peripheral => exact absurd hst (ok.accepted hrl)
      exact ⟨x, by rw [e1]; exact hx', e3, e4, ok.configured hrole⟩
    cases h2 with
    | cons hx htail =>
      rename_i r rs'
      obtain ⟨e1, e2, x, hxx, hst, e3, e4⟩ := hx
      obtain ⟨x', hx', -, -, hcs, hgs⟩ := hconf r (by simp)
      have : x' = x := by
        rw [e1] at hx'
        exact Option.some.inj (hx'.symm.trans hxx)
      subst this
      obtain ⟨c, hc⟩ := Option.isSome_iff_exists.1 hcs
      obtain ⟨g, hg⟩ := Option.isSome_iff_exists.1 hgs
      obtain ⟨cigs', hl⟩ := lock_all (rs := r :: rs') (cigs := s.cigs) (fun y hy => by
        obtain ⟨z, -, hz, -, -, hz'⟩ := hconf y hy
        rw [hz]; exact hz')
      have hk := lockCigs_keep hl _ _ hg
      have hdf := dequeue_fits (s := { s with cigs := cigs', requests := r :: rs' }) rfl (by rw [e3, e4]; exact hc) (by rw [e3]; exact hk)
        (by rw [hx']; rfl)
      have e2' : r.acl = acl := e2
      rw [e2', e3, e4] at hdf
      refine ⟨x', c, g, hxx, hc, hg, fun hf => ?_, fun hf => ?_⟩
      · obtain ⟨s', hd⟩ := hdf.1 hf
        simp only [step, runCmd, createCis, hcc, hq, hh, hl, hd]
        exact ⟨s', rfl⟩
      · obtain ⟨f, hd⟩ := hdf.2 hf
        simp only [step, runCmd, createCis, hcc, hq, hh, hl, hd]
        exact ⟨f, rfl⟩

/-- The request for the first stream of the example. -/
example : ∃ s', step fullEnv exampleState (.hci (.createCis [(0xE00, 0x10)])) =
    .ok (s', [.llcp 0x10 (.cisReq { exampleReq with cigId := 3, phyP := 2, maxSduP := 50, maxPduC := 251, maxPduP := 251 }),
      .event (.createCisStatus 0)]) := ⟨_, rfl⟩

end Verif.Iso
