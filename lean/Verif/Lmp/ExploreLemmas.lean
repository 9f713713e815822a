import Verif.Lmp.KernelRfl
import Verif.Lmp.PairSpec
import Verif.Lmp.SchedLemmas

/-! # The explorations, and what they say about schedules -/

namespace Verif.Lmp

/-- The explored state of `Duo.start`. -/
def startM (fa fb : Feats) : MSys :=
  ⟨⟨procedures fa, [⟨.authenticationRequested, 1, noParams⟩], [], 0, []⟩, ⟨procedures fb, [], [], 0, []⟩⟩

theorem start_rel (fa fb : Feats) {ua ub : User} {good : MSys → Bool} {k : Nat}
    (h : explore (hosts ua ub) good k (startM fa fb) = true) : Rel ua ub good k (Duo.start fa fb) (startM fa fb) :=
  ⟨h, ⟨rfl, rfl, rfl, rfl, rfl⟩, ⟨rfl, rfl, rfl, rfl, rfl⟩⟩

/-- A successful exploration settles every fair schedule. -/
theorem explore_ends {fa fb : Feats} {ua ub : User} {good : MSys → Bool} {k : Nat}
    (h : explore (hosts ua ub) good k (startM fa fb) = true) {σ : Nat → Act} (fair : Fair σ) :
    ∃ n s x, (∀ m, n ≤ m → (Duo.start fa fb).run ua ub ((List.range m).map σ) = some s) ∧
      AbsDev s.a x.a ∧ AbsDev s.b x.b ∧ s.a.wire = [] ∧ s.b.wire = [] ∧ good x = true := by
  obtain ⟨n, s, x, k', hat, hrel, hd⟩ := fair_dead (s0 := Duo.start fa fb) fair k _ 0 (Duo.start fa fb) (startM fa fb)
    rfl (start_rel fa fb h) rfl
  refine ⟨n, s, x, ?_, hrel.a, hrel.b, hd.wireA, hd.wireB, explore_stuck hrel.ok hd.moves⟩
  intro m hm
  have := dead_stays hat hd (m - n)
  rwa [Nat.add_sub_cancel' hm] at this

def MSide.verdictOf (m : MSide) : Verdict :=
  ⟨m.log.filterMap Ev.pairing?, m.log.filterMap Ev.key?, m.log.filterMap Ev.auth?⟩

def MSide.quiet (m : MSide) : Bool := m.queue.isEmpty && m.inbox.isEmpty && m.procs.all (fun p => !p.busy)

/-- At rest, with these verdicts. -/
def goodIs (va vb : Verdict) (s : MSys) : Bool :=
  s.a.quiet && s.b.quiet && decide (s.a.verdictOf = va) && decide (s.b.verdictOf = vb)

theorem filterMap_verdict {β : Type} (f : Ev → Option β) (hf : ∀ e, (f e).isSome → e.verdict = true) :
    ∀ l : List Ev, (l.filter Ev.verdict).filterMap f = l.filterMap f
  | [] => rfl
  | e :: l => by
    have ih := filterMap_verdict f hf l
    simp only [List.filter_cons, List.filterMap_cons]
    cases he : e.verdict
    · have : f e = none := by
        cases hfe : f e with
        | none => rfl
        | some b =>
          have := hf e (by simp [hfe])
          rw [he] at this
          simp at this
      simp [ih, this]
    · simp only [if_true, List.filterMap_cons, ih]

theorem verdict_of {d : Dev} {m : MSide} (h : AbsDev d m) : d.verdict = m.verdictOf := by
  unfold Dev.verdict MSide.verdictOf Dev.pairings Dev.keys Dev.auths
  rw [h.log, filterMap_verdict Ev.pairing?, filterMap_verdict Ev.key?, filterMap_verdict Ev.auth?]
  all_goals (intro e he; cases e <;> first | rfl | (simp [Ev.pairing?, Ev.key?, Ev.auth?] at he))

theorem atRest_of {d : Dev} {m : MSide} (h : AbsDev d m) (hw : d.wire = []) (hq : m.quiet = true) : d.AtRest := by
  simp only [MSide.quiet, Bool.and_eq_true, List.isEmpty_iff, List.all_eq_true] at hq
  obtain ⟨⟨h1, h2⟩, h3⟩ := hq
  have hq' := h.queue
  rw [h1, hw, List.append_nil] at hq'
  have hi := h.inbox
  rw [h2] at hi
  have := List.append_eq_nil_iff.1 hi.symm
  have hs : d.link.slot = none := by
    cases hsl : d.link.slot with
    | none => rfl
    | some c => rw [hsl] at this; simp at this
  exact ⟨⟨hw, this.2, hs, hq'.symm⟩, m.procs, h.procs, fun p hp => by simpa using h3 p hp⟩

/-- From an exploration to the theorem about schedules. -/
theorem ends_of_explore {fa fb : Feats} {ua ub : User} {va vb : Verdict} {k : Nat}
    (h : explore (hosts ua ub) (goodIs va vb) k (startM fa fb) = true) {σ : Nat → Act} (fair : Fair σ) :
    EndsWith fa fb ua ub σ va vb := by
  obtain ⟨n, s, x, hrun, ha, hb, hwa, hwb, hg⟩ := explore_ends h fair
  refine ⟨n, fun m hm => ⟨s, hrun m hm, ?_⟩⟩
  simp only [goodIs, Bool.and_eq_true, decide_eq_true_eq] at hg
  exact ⟨atRest_of ha hwa hg.1.1.1, atRest_of hb hwb hg.1.1.2, by rw [verdict_of ha, hg.1.2], by rw [verdict_of hb, hg.2]⟩

theorem quiet_of_atRest {d : Dev} {m : MSide} (h : AbsDev d m) (hr : d.AtRest) : m.quiet = true := by
  obtain ⟨⟨h1, h2, h3, h4⟩, ps, hps, hall⟩ := hr
  have hq := h.queue
  have hi := h.inbox
  rw [h4, h1] at hq
  rw [h3, h2] at hi
  have hp : ps = m.procs := by
    have := h.procs
    rw [hps] at this
    exact Option.some.inj this
  subst hp
  simp only [MSide.quiet, Bool.and_eq_true, List.isEmpty_iff, List.all_eq_true]
  exact ⟨⟨by simpa using hq, by simpa using hi⟩, fun p hp => by simp [hall p hp]⟩

/-- One of the sides is not at rest. -/
def stuck (s : MSys) : Bool := !(s.a.quiet && s.b.quiet)

theorem hangs_of_explore {fa fb : Feats} {ua ub : User} {k : Nat}
    (h : explore (hosts ua ub) stuck k (startM fa fb) = true) {σ : Nat → Act} (fair : Fair σ) :
    Hangs fa fb ua ub σ := by
  obtain ⟨n, s, x, hrun, ha, hb, hwa, hwb, hg⟩ := explore_ends h fair
  refine ⟨n, s, hrun, fun hr => ?_⟩
  simp [stuck, quiet_of_atRest ha hr.1, quiet_of_atRest hb hr.2] at hg

/-! ## The exchange of IO capabilities -/

/-- The initiator's procedure from the public keys on. -/
def restI (pl : Plan) (c : Curve) : Prog Unit :=
  (initiateRest pl c).bind (fun ok => hci (.authenticationComplete (if ok then .success else .authenticationFailure)))

/-- The responder's procedure from the public keys on. -/
def restR (pl : Plan) : Prog Unit := (respondRest pl).bind (fun _ => Prog.ret ())

def awaitOf (p : Prog Unit) : Prog Unit :=
  match (flush p).2 with
  | .await q => q
  | _ => .panic

/-- The IO capabilities and features have been exchanged; the initiator has sent the header of its public
key. -/
def midState (fa fb : Feats) (pl : Plan) (c : Curve) (last : Nat) : MSys :=
  ⟨⟨⟨authInitiate fa, awaitOf (restI pl c), true⟩ :: (procedures fa).tail, [], [], 0, []⟩,
   ⟨(procedures fb).set 1 ⟨authRespond, awaitOf (restR pl), true⟩, [], [.encapsulatedHeader (keyOctets c)], last, []⟩⟩

theorem prefix_no_sc (g : MSys → Bool) (n : Nat) (x y sc : Bool) (w1 w2 w3 w4 : Word) (p q : Params)
    (pin c ps o lk' pin' c' ps' o' : Bool) :
    explore (hosts ⟨false, pin, some p, c, ps, o⟩ ⟨lk', pin', some q, c', ps', o'⟩) g (n + 8)
      (startM ⟨⟨true, false, x⟩, w1, w2⟩ ⟨⟨true, sc, y⟩, w3, w4⟩) =
    explore (hosts ⟨false, pin, some p, c, ps, o⟩ ⟨lk', pin', some q, c', ps', o'⟩) g n
      (midState ⟨⟨true, false, x⟩, w1, w2⟩ ⟨⟨true, sc, y⟩, w3, w4⟩ (plan p q) false 1) := by
  kernel_rfl

theorem prefix_sc (g : MSys → Bool) (n : Nat) (x y sc : Bool) (w1 w2 w3 w4 : Word) (p q : Params)
    (pin c ps o lk' pin' c' ps' o' : Bool) :
    explore (hosts ⟨false, pin, some p, c, ps, o⟩ ⟨lk', pin', some q, c', ps', o'⟩) g (n + 10)
      (startM ⟨⟨true, true, x⟩, w1, w2⟩ ⟨⟨true, sc, y⟩, w3, w4⟩) =
    explore (hosts ⟨false, pin, some p, c, ps, o⟩ ⟨lk', pin', some q, c', ps', o'⟩) g n
      (midState ⟨⟨true, true, x⟩, w1, w2⟩ ⟨⟨true, sc, y⟩, w3, w4⟩ (plan p q) sc 4) := by
  cases sc <;> kernel_rfl

/-! ## From the public keys to the end -/

/-- The last procedure of the responder that moved, depending on whether features were exchanged. -/
def lastOf (b : Bool) : Nat := if b then 4 else 1

theorem rest_numeric (fa fb : Feats) (just kI kR oI oR : Bool) (curve b : Bool) (p q : Option Params)
    (lk pin c ps o lk' pin' c' ps' o' : Bool) :
    explore (hosts ⟨lk, pin, p, c, ps, o⟩ ⟨lk', pin', q, c', ps', o'⟩)
      (goodIs (pairedI (c && c') (linkKeyType (if just then .justWork else .userConfirm) curve))
        (pairedR (c && c') (linkKeyType (if just then .justWork else .userConfirm) curve))) 300
      (midState fa fb ⟨if just then .justWork else .userConfirm, kI, kR, oI, oR⟩ curve (lastOf b)) = true := by
  cases just <;> cases curve <;> cases b <;> cases c <;> cases c' <;> kernel_rfl

theorem rest_passkey_I (fa fb : Feats) (oI oR : Bool) (curve b : Bool) (p q : Option Params)
    (lk pin c ps o lk' pin' c' ps' o' : Bool) :
    explore (hosts ⟨lk, pin, p, c, ps, o⟩ ⟨lk', pin', q, c', ps', o'⟩)
      (goodIs (pairedI ps (linkKeyType .passkeyEntry curve)) (pairedR ps (linkKeyType .passkeyEntry curve))) 300
      (midState fa fb ⟨.passkeyEntry, true, false, oI, oR⟩ curve (lastOf b)) = true := by
  cases curve <;> cases b <;> cases ps <;> kernel_rfl

theorem rest_passkey_R (fa fb : Feats) (oI oR : Bool) (curve b : Bool) (p q : Option Params)
    (lk pin c ps o lk' pin' c' ps' o' : Bool) :
    explore (hosts ⟨lk, pin, p, c, ps, o⟩ ⟨lk', pin', q, c', ps', o'⟩)
      (goodIs (pairedI ps' (linkKeyType .passkeyEntry curve)) (pairedR ps' (linkKeyType .passkeyEntry curve))) 300
      (midState fa fb ⟨.passkeyEntry, false, true, oI, oR⟩ curve (lastOf b)) = true := by
  cases curve <;> cases b <;> cases ps' <;> kernel_rfl

theorem rest_passkey_both (fa fb : Feats) (oI oR : Bool) (curve b : Bool) (p q : Option Params)
    (lk pin c o lk' pin' c' o' : Bool) :
    explore (hosts ⟨lk, pin, p, c, true, o⟩ ⟨lk', pin', q, c', true, o'⟩)
      (goodIs (pairedI true (linkKeyType .passkeyEntry curve)) (pairedR true (linkKeyType .passkeyEntry curve))) 300
      (midState fa fb ⟨.passkeyEntry, true, true, oI, oR⟩ curve (lastOf b)) = true := by
  cases curve <;> cases b <;> kernel_rfl

theorem rest_oob (fa fb : Feats) (kI kR oI oR : Bool) (curve b : Bool) (p q : Option Params)
    (lk pin c ps o lk' pin' c' ps' o' : Bool) (h : oI = true → o = true) :
    explore (hosts ⟨lk, pin, p, c, ps, o⟩ ⟨lk', pin', q, c', ps', o'⟩)
      (goodIs (pairedI true (linkKeyType .outOfBand curve)) (pairedR true (linkKeyType .outOfBand curve))) 300
      (midState fa fb ⟨.outOfBand, kI, kR, oI, oR⟩ curve (lastOf b)) = true := by
  cases oI
  · cases oR
    · cases curve <;> cases b <;> kernel_rfl
    · cases curve <;> cases b <;> cases o' <;> kernel_rfl
  · obtain rfl := h rfl
    cases oR
    · cases curve <;> cases b <;> kernel_rfl
    · cases curve <;> cases b <;> cases o' <;> kernel_rfl

/-! ## Authentication without simple pairing -/

theorem run_key (fa fb : Feats) (p q : Option Params) (pin c ps o lk' pin' c' ps' o' : Bool) :
    explore (hosts ⟨true, pin, p, c, ps, o⟩ ⟨lk', pin', q, c', ps', o'⟩)
      (goodIs ⟨[], [], [if lk' then .success else .pinOrKeyMissing]⟩ ⟨[], [], []⟩) 40 (startM fa fb) = true := by
  cases lk' <;> kernel_rfl

theorem run_refused (x y sa sb : Bool) (w1 w2 w3 w4 : Word) (q : Option Params) (pin c ps o lk' pin' c' ps' o' : Bool) :
    explore (hosts ⟨false, pin, none, c, ps, o⟩ ⟨lk', pin', q, c', ps', o'⟩)
      (goodIs ⟨[.authenticationFailure], [], [.authenticationFailure]⟩ ⟨[], [], []⟩) 40
      (startM ⟨⟨true, sa, x⟩, w1, w2⟩ ⟨⟨true, sb, y⟩, w3, w4⟩) = true := by
  kernel_rfl

theorem run_legacy_local (x sa : Bool) (w1 w2 : Word) (fb : Feats) (p q : Option Params)
    (c ps o lk' c' ps' o' : Bool) :
    explore (hosts ⟨false, true, p, c, ps, o⟩ ⟨lk', true, q, c', ps', o'⟩)
      (goodIs ⟨[], [.combination], [.success]⟩ ⟨[], [.combination], []⟩) 40
      (startM ⟨⟨false, sa, x⟩, w1, w2⟩ fb) = true := by
  kernel_rfl

theorem run_legacy_remote (x y sa sb : Bool) (w1 w2 w3 w4 : Word) (p q : Option Params)
    (c ps o lk' c' ps' o' : Bool) :
    explore (hosts ⟨false, true, p, c, ps, o⟩ ⟨lk', true, q, c', ps', o'⟩)
      (goodIs ⟨[], [.combination], [.success]⟩ ⟨[], [.combination], []⟩) 40
      (startM ⟨⟨true, sa, x⟩, w1, w2⟩ ⟨⟨false, sb, y⟩, w3, w4⟩) = true := by
  kernel_rfl

/-! ## The runs that never end -/

theorem stuck_legacy_local (x sa : Bool) (w1 w2 : Word) (fb : Feats) (p q : Option Params)
    (pin pin' c ps o lk' c' ps' o' : Bool) (h : (pin && pin') = false) :
    explore (hosts ⟨false, pin, p, c, ps, o⟩ ⟨lk', pin', q, c', ps', o'⟩) stuck 40
      (startM ⟨⟨false, sa, x⟩, w1, w2⟩ fb) = true := by
  cases pin
  · kernel_rfl
  · cases pin'
    · kernel_rfl
    · simp at h

theorem stuck_legacy_remote (x y sa sb : Bool) (w1 w2 w3 w4 : Word) (p q : Option Params)
    (pin pin' c ps o lk' c' ps' o' : Bool) (h : (pin && pin') = false) :
    explore (hosts ⟨false, pin, p, c, ps, o⟩ ⟨lk', pin', q, c', ps', o'⟩) stuck 40
      (startM ⟨⟨true, sa, x⟩, w1, w2⟩ ⟨⟨false, sb, y⟩, w3, w4⟩) = true := by
  cases pin
  · kernel_rfl
  · cases pin'
    · kernel_rfl
    · simp at h

theorem stuck_io (x y sa sb : Bool) (w1 w2 w3 w4 : Word) (p : Params) (pin c ps o lk' pin' c' ps' o' : Bool) :
    explore (hosts ⟨false, pin, some p, c, ps, o⟩ ⟨lk', pin', none, c', ps', o'⟩) stuck 40
      (startM ⟨⟨true, sa, x⟩, w1, w2⟩ ⟨⟨true, sb, y⟩, w3, w4⟩) = true := by
  kernel_rfl

theorem stuck_passkey (fa fb : Feats) (oI oR : Bool) (curve b : Bool) (p q : Option Params)
    (lk pin c ps o lk' pin' c' ps' o' : Bool) (h : (ps && ps') = false) :
    explore (hosts ⟨lk, pin, p, c, ps, o⟩ ⟨lk', pin', q, c', ps', o'⟩) stuck 300
      (midState fa fb ⟨.passkeyEntry, true, true, oI, oR⟩ curve (lastOf b)) = true := by
  cases ps
  · cases ps' <;> cases curve <;> cases b <;> kernel_rfl
  · cases ps'
    · cases curve <;> cases b <;> kernel_rfl
    · simp at h

theorem stuck_oob (fa fb : Feats) (kI kR oR : Bool) (curve b : Bool) (p q : Option Params)
    (lk pin c ps lk' pin' c' ps' o' : Bool) :
    explore (hosts ⟨lk, pin, p, c, ps, false⟩ ⟨lk', pin', q, c', ps', o'⟩) stuck 300
      (midState fa fb ⟨.outOfBand, kI, kR, true, oR⟩ curve (lastOf b)) = true := by
  cases oR
  · cases curve <;> cases b <;> kernel_rfl
  · cases curve <;> cases b <;> cases o' <;> kernel_rfl

end Verif.Lmp
