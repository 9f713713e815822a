import Verif.Reg.Spec
/-!
# C79: what a host writes is what it reads -/
namespace Verif.Reg

/-- The parameters that are read from where they are written. -/
def real : Par → Bool
  | .inquiryMode | .pageScanType | .inquiryScanType | .pageScanActivity | .inquiryScanActivity => false
  | _ => true

/-- The controller and what its host knows. -/
structure Rel (s : St) (h : Host) : Prop where
  value : ∀ p, real p = true → read s p = h.value p
  host : s.hostFeatures = page1 h.feature
  leHost : s.leHostFeatures = leWith 0 h.leFeature
  policy : ∀ k, (s.conns k).map (·.policy) = h.policy k
  le : s.leConns = h.le

theorem page1_set (f : Feature → Bool) (g : Feature) (on : Bool) :
    (if on then page1 f ||| g.mask else clear (page1 f) g.mask) = page1 (fun k => if k = g then on else f k) := by
  cases h1 : f .simplePairing <;> cases h2 : f .leHost <;> cases h3 : f .secureConnections <;> cases g <;> cases on <;>
    simp [page1, h1, h2, h3, Feature.mask, clear]

theorem leWith_set (f : Nat → Bool) (b : Nat) (hb : b = 32 ∨ b = 38 ∨ b = 47) (on : Bool) :
    (if on then leWith 0 f ||| 1 <<< b else clear (leWith 0 f) (1 <<< b)) = leWith 0 (fun k => if k = b then on else f k) := by
  cases h1 : f 32 <;> cases h2 : f 38 <;> cases h3 : f 47 <;> rcases hb with rfl | rfl | rfl <;> cases on <;>
    simp [leWith, h1, h2, h3, clear]

theorem write_status {c : Caps} {s : St} {p : Par} {v : List Nat} (hl : legal p v = true) :
    (write c s p v).1 = (if refused p v then 0x12 else 0) := by
  cases p <;> rcases v with _ | ⟨x, _ | ⟨y, _ | ⟨z, l⟩⟩⟩ <;> simp_all [legal, write, refused, one, invalid] <;>
    (repeat' split) <;> simp_all <;> omega

theorem write_frame {c : Caps} {s : St} {p : Par} {v : List Nat} :
    (write c s p v).2.hostFeatures = s.hostFeatures ∧ (write c s p v).2.leHostFeatures = s.leHostFeatures ∧
    (write c s p v).2.conns = s.conns ∧ (write c s p v).2.leConns = s.leConns ∧ (write c s p v).2.csHost = s.csHost := by
  cases p <;> first
    | exact ⟨rfl, rfl, rfl, rfl, rfl⟩
    | (simp only [write]; split <;> exact ⟨rfl, rfl, rfl, rfl, rfl⟩)

theorem write_other {c : Caps} {s : St} {p q : Par} {v : List Nat} (hq : q ≠ p) : read (write c s p v).2 q = read s q := by
  cases p <;> cases q <;> first
    | exact absurd rfl hq
    | rfl
    | (simp only [write]; split <;> rfl)

theorem write_self {c : Caps} {s : St} {p : Par} {v : List Nat} (hl : legal p v = true) (hp : real p = true)
    (hr : refused p v = false) : read (write c s p v).2 p = keeps c.iacs p v := by
  cases p with
  | currentIacLap =>
    simp only [write, read, keeps]
    split
    · rfl
    · rw [List.take_of_length_le (by omega)]
  | scanEnable =>
    rcases v with _ | ⟨x, _ | ⟨y, l⟩⟩ <;> simp [legal] at hl
    have : x = 0 ∨ x = 1 ∨ x = 2 ∨ x = 3 := by omega
    rcases this with rfl | rfl | rfl | rfl <;> rfl
  | scoFlowControl =>
    rcases v with _ | ⟨x, _ | ⟨y, l⟩⟩ <;> simp [legal] at hl
    have : x = 0 ∨ x = 1 := by omega
    rcases this with rfl | rfl <;> rfl
  | suggestedDataLength =>
    rcases v with _ | ⟨x, _ | ⟨y, _ | ⟨z, l⟩⟩⟩ <;> simp [legal] at hl
    simp [refused] at hr
    have : ¬(x > 0xfb ∨ x < 0x1b ∨ y < 0x148 ∨ y > 0x4290) := by omega
    simp only [write, List.getD_cons_zero, List.getD_cons_succ]
    rw [if_neg this]
    rfl
  | defaultLinkPolicy =>
    rcases v with _ | ⟨x, _ | ⟨y, l⟩⟩ <;> simp [legal] at hl
    simp [refused] at hr
    have : ¬one [x] > 7 := by simp only [one, List.headD_cons]; omega
    simp only [write]
    rw [if_neg this]
    rfl
  | localName => rfl
  | _ => first
    | (cases hp; done)
    | (rcases v with _ | ⟨x, _ | ⟨y, l⟩⟩ <;> simp [legal] at hl; rfl)

theorem write_refused {c : Caps} {s : St} {p : Par} {v : List Nat} (hl : legal p v = true)
    (hr : refused p v = true) : (write c s p v).2 = s := by
  cases p with
  | defaultLinkPolicy =>
    rcases v with _ | ⟨x, _ | ⟨y, l⟩⟩ <;> simp [legal] at hl
    simp only [refused, decide_eq_true_eq] at hr
    have : one [x] > 7 := by simp only [one, List.headD_cons]; omega
    simp only [write]
    rw [if_pos this]
  | suggestedDataLength =>
    rcases v with _ | ⟨x, _ | ⟨y, _ | ⟨z, l⟩⟩⟩ <;> simp [legal] at hl
    have : x > 0xfb ∨ x < 0x1b ∨ y < 0x148 ∨ y > 0x4290 := by
      apply Classical.byContradiction
      intro hn
      have h1 : 27 ≤ x ∧ x ≤ 251 ∧ 328 ≤ y ∧ y ≤ 17040 := by omega
      simp [refused, h1] at hr
    simp only [write, List.getD_cons_zero, List.getD_cons_succ]
    rw [if_pos this]
  | _ => simp [refused] at hr

theorem write_ok {c : Caps} {s : St} {h : Host} (r : Rel s h) {p : Par} {v : List Nat} (hl : legal p v = true) :
    Rel (write c s p v).2 (if refused p v then h
      else { h with value := fun q => if q = p then keeps c.iacs p v else h.value q }) := by
  obtain ⟨f1, f2, f3, f4, f5⟩ := write_frame (c := c) (s := s) (p := p) (v := v)
  cases hr : refused p v
  · simp only [Bool.false_eq_true, if_false]
    refine ⟨fun q hq => ?_, by rw [f1]; exact r.host, by rw [f2]; exact r.leHost, by rw [f3]; exact r.policy, by rw [f4]; exact r.le⟩
    by_cases e : q = p
    · subst e
      simp only [if_true]
      exact write_self hl hq hr
    · simp only [e, if_false]
      rw [write_other e]
      exact r.value q hq
  · rw [write_refused hl hr]
    exact r

theorem reset_ok (s : St) : Rel (reset s) .reset := by
  refine ⟨fun p hp => ?_, rfl, rfl, fun _ => rfl, rfl⟩
  cases p <;> first
    | rfl
    | (cases hp; done)

theorem loop_iff {s : St} {h : Host} (r : Rel s h) : s.loopback = 1 ↔ h.value .loopbackMode = [1] := by
  rw [← r.value .loopbackMode rfl]
  simp [read]

theorem looped_iff (x : Act) : x.looped = true ↔ inLoopback x = false := by
  cases x with
  | write p v => cases p <;> simp [Act.looped, inLoopback]
  | read p => cases p <;> simp [Act.looped, inLoopback]
  | _ => simp [Act.looped, inLoopback]

/-- `read` looks only at the parameters. -/
theorem Rel.host_only {s s' : St} {h : Host} (r : Rel s h) (hv : ∀ p, read s' p = read s p) (f : Feature → Bool)
    (g : Nat → Bool) (k : Nat → Option Nat) (le : List Nat) (h1 : s'.hostFeatures = page1 f) (h2 : s'.leHostFeatures = leWith 0 g)
    (h3 : ∀ j, (s'.conns j).map (·.policy) = k j) (h4 : s'.leConns = le) : Rel s' ⟨h.value, f, g, k, le⟩ :=
  ⟨fun p hp => by rw [hv]; exact r.value p hp, h1, h2, h3, h4⟩

theorem shift32 {b : Nat} (hb : b < 64) : (1 <<< b = 0x100000000 ↔ b = 32) ∧ (1 <<< b = 0x4000000000 ↔ b = 38) ∧
    (1 <<< b = 0x800000000000 ↔ b = 47) := by
  have : ∀ b : Fin 64, (1 <<< b.val = 0x100000000 ↔ b.val = 32) ∧ (1 <<< b.val = 0x4000000000 ↔ b.val = 38) ∧
    (1 <<< b.val = 0x800000000000 ↔ b.val = 47) := by decide +kernel
  exact this ⟨b, hb⟩

theorem setLe_ok {s : St} {h : Host} (r : Rel s h) (b v : Nat) :
    ((setLeFeature s b v).1 = if 64 ≤ b ∨ 2 ≤ v then 0x12 else if h.le ≠ [] then 0x0c
      else if b = 32 ∨ b = 38 ∨ b = 47 then 0 else 0x11) ∧
    ((setLeFeature s b v).1 ≠ 0 → (setLeFeature s b v).2 = s) ∧
    ((setLeFeature s b v).1 = 0 → (∀ p, read (setLeFeature s b v).2 p = read s p) ∧
      (setLeFeature s b v).2.leHostFeatures = leWith 0 (fun k => if k = b then decide (v = 1) else h.leFeature k) ∧
      (setLeFeature s b v).2.hostFeatures = s.hostFeatures ∧ (setLeFeature s b v).2.conns = s.conns ∧
      (setLeFeature s b v).2.leConns = s.leConns ∧
      (setLeFeature s b v).2.csHost = (if b = 47 then decide (v = 1) else s.csHost)) := by
  have hv : ¬(2 ≤ v) → v = 0 ∨ v = 1 := by omega
  by_cases h1 : 64 ≤ b ∨ 2 ≤ v
  · have e : setLeFeature s b v = (invalid, s) := by unfold setLeFeature; exact if_pos (by omega)
    rw [e, if_pos h1]
    exact ⟨rfl, fun _ => rfl, nofun⟩
  have h1' : ¬(b ≥ 64 ∨ v > 1) := by omega
  replace hv := hv (by omega)
  rw [if_neg h1]
  by_cases h2 : h.le = []
  case neg =>
    have e : setLeFeature s b v = (disallowed, s) := by
      unfold setLeFeature
      rw [if_neg h1', r.le]
      exact if_pos h2
    rw [e, if_pos h2]
    exact ⟨rfl, fun _ => rfl, nofun⟩
  have h2' : ¬(s.leConns ≠ []) := by rw [r.le]; simp [h2]
  rw [if_neg (by simp [h2])]
  obtain ⟨e1, e2, e3⟩ := shift32 (b := b) (by omega)
  have key : ∀ b, b = 32 ∨ b = 38 ∨ b = 47 → (if v ≠ 0 then s.leHostFeatures ||| 1 <<< b else clear s.leHostFeatures (1 <<< b)) =
      leWith 0 (fun k => if k = b then decide (v = 1) else h.leFeature k) := by
    intro b hb
    rw [r.leHost, ← leWith_set _ _ hb]
    rcases hv with rfl | rfl <;> rfl
  have e : setLeFeature s b v = (if b = 32 ∨ b = 38 ∨ b = 47 then
      (0, { s with
        csHost := if b = 47 then decide (v = 1) else s.csHost
        leHostFeatures := if v ≠ 0 then s.leHostFeatures ||| 1 <<< b else clear s.leHostFeatures (1 <<< b) })
      else (unsupported, s)) := by
    unfold setLeFeature
    rw [if_neg h1', if_neg h2']
    simp only [e1, e2, e3]
    have h47 : decide (v ≠ 0) = decide (v = 1) := by rcases hv with rfl | rfl <;> rfl
    by_cases h32 : b = 32
    · subst h32; rfl
    · by_cases h38 : b = 38
      · subst h38; rfl
      · by_cases h47' : b = 47
        · subst h47'; simp [← h47]
        · simp [h32, h38, h47']
  rw [e]
  by_cases hb : b = 32 ∨ b = 38 ∨ b = 47
  · rw [if_pos hb, if_pos hb]
    exact ⟨rfl, fun h => absurd rfl h, fun _ => ⟨fun p => by cases p <;> rfl, key b hb, rfl, rfl, rfl, rfl⟩⟩
  · rw [if_neg hb, if_neg hb]
    exact ⟨rfl, fun _ => rfl, nofun⟩

/-- The channel sounding commands look at another member than Read Local Supported Features. -/
def Same (s : St) (h : Host) : Prop := s.csHost = h.leFeature 47

/-- One step: the answer, and what the host knows afterwards. -/
theorem step_ok {c : Caps} {s : St} {h : Host} (r : Rel s h) {x : Act} (hs : sound x = true) (hk : kept x = true)
    (hx : x = .soundingAllowed → Same s h) :
    (step c s x).1 = (expect c h x).1 ∧ (step c s x).1 ≠ .crash ∧ Rel (step c s x).2 (expect c h x).2 ∧
    (x ≠ .reset → Same s h → Same (step c s x).2 (expect c h x).2) := by
  have hcond : (s.loopback = 1 ∧ x.looped = true) ↔ (h.value .loopbackMode = [1] ∧ inLoopback x = false) := by
    rw [loop_iff r, looped_iff]
  unfold step expect
  by_cases hl : h.value .loopbackMode = [1] ∧ inLoopback x = false
  · rw [if_pos (hcond.mpr hl), if_pos hl]
    exact ⟨rfl, nofun, r, fun _ h => h⟩
  rw [if_neg (fun hh => hl (hcond.mp hh)), if_neg hl]
  cases x with
  | write p v =>
    have h1 := write_status (c := c) (s := s) hs
    have h2 := write_ok (c := c) r hs
    have h3 := (write_frame (c := c) (s := s) (p := p) (v := v)).2.2.2.2
    simp only [exec]
    cases hr : refused p v <;> rw [hr] at h1 h2 <;> simp only [Bool.false_eq_true, if_true, if_false] at h1 h2 ⊢
    · exact ⟨by rw [h1], nofun, h2, fun _ h => by simp only [Same] at h ⊢; rw [h3]; exact h⟩
    · exact ⟨by rw [h1], nofun, h2, fun _ h => by simp only [Same] at h ⊢; rw [h3]; exact h⟩
  | read p =>
    refine ⟨?_, nofun, r, fun _ h => h⟩
    simp only [exec]
    rw [r.value p (by cases p <;> first | rfl | (cases hk; done))]
  | setFeature f on =>
    refine ⟨rfl, nofun, ?_, fun _ h => h⟩
    refine r.host_only (fun p => by cases p <;> rfl) _ _ _ _ ?_ r.leHost r.policy r.le
    simp only [exec, setFeature]
    rw [r.host, ← page1_set]
  | readFeatures page =>
    simp only [kept, decide_eq_true_eq] at hk
    have : page = 0 ∨ page = 1 ∨ page = 2 := by omega
    rcases this with rfl | rfl | rfl
    · exact ⟨rfl, nofun, r, fun _ h => h⟩
    · exact ⟨by simp only [exec, readFeatures, if_true, r.host], nofun, r, fun _ h => h⟩
    · exact ⟨rfl, nofun, r, fun _ h => h⟩
  | setLeFeature b v =>
    obtain ⟨h1, h2, h3⟩ := setLe_ok r b v
    simp only [exec]
    by_cases e1 : 64 ≤ b ∨ 2 ≤ v
    · rw [if_pos e1] at h1 ⊢
      rw [h2 (by rw [h1]; decide)]
      exact ⟨by rw [h1], nofun, r, fun _ h => h⟩
    rw [if_neg e1] at h1 ⊢
    by_cases e2 : h.le ≠ []
    · rw [if_pos e2] at h1 ⊢
      rw [h2 (by rw [h1]; decide)]
      exact ⟨by rw [h1], nofun, r, fun _ h => h⟩
    rw [if_neg e2] at h1 ⊢
    by_cases e3 : b = 32 ∨ b = 38 ∨ b = 47
    · rw [if_pos e3] at h1 ⊢
      obtain ⟨g1, g2, g3, g4, g5, g6⟩ := h3 h1
      refine ⟨by rw [h1], nofun, ?_, fun _ h => ?_⟩
      · exact r.host_only g1 _ _ _ _ (by rw [g3]; exact r.host) g2 (by rw [g4]; exact r.policy) (by rw [g5]; exact r.le)
      · simp only [Same] at h ⊢
        rw [g6]
        by_cases e : b = 47
        · simp [e]
        · simp [e, Ne.symm e, h]
    · rw [if_neg e3] at h1 ⊢
      rw [h2 (by rw [h1]; decide)]
      exact ⟨by rw [h1], nofun, r, fun _ h => h⟩
  | readLeFeatures =>
    refine ⟨?_, nofun, r, fun _ h => h⟩
    simp only [exec]
    rw [r.leHost]
    simp [leWith]
  | soundingAllowed =>
    refine ⟨?_, nofun, r, fun _ h => h⟩
    simp only [exec]
    rw [hx rfl]
  | readPolicy k =>
    have h1 := r.policy k
    simp only [exec, readPolicy]
    cases hc : s.conns k <;> rw [hc] at h1 <;> simp only [Option.map_none, Option.map_some] at h1 <;> rw [← h1] <;>
      exact ⟨rfl, nofun, r, fun _ h => h⟩
  | writePolicy k v =>
    have h1 := r.policy k
    simp only [exec, writePolicy]
    cases hc : s.conns k with
    | none =>
      rw [hc] at h1
      simp only [Option.map_none] at h1
      rw [if_pos h1.symm]
      exact ⟨rfl, nofun, r, fun _ h => h⟩
    | some x =>
      rw [hc] at h1
      simp only [Option.map_some] at h1
      have hn : ¬h.policy k = none := by rw [← h1]; nofun
      simp only [hn, if_false]
      by_cases hv : v > 7
      · rw [if_pos hv, if_pos (by omega)]
        exact ⟨rfl, nofun, r, fun _ h => h⟩
      · rw [if_neg hv, if_neg (by omega)]
        refine ⟨rfl, nofun, ?_, fun _ h => h⟩
        refine r.host_only (fun p => by cases p <;> rfl) _ _ _ _ r.host r.leHost (fun j => ?_) r.le
        simp only
        split
        · rfl
        · exact r.policy j
  | reset => exact ⟨rfl, nofun, reset_ok s, fun h => absurd rfl h⟩
  | connect k =>
    refine ⟨rfl, nofun, ?_, fun _ h => h⟩
    refine r.host_only (fun p => by cases p <;> rfl) _ _ _ _ r.host r.leHost (fun j => ?_) r.le
    simp only [exec]
    split
    · rw [← r.value .defaultLinkPolicy rfl]; rfl
    · exact r.policy j
  | disconnect k =>
    refine ⟨rfl, nofun, ?_, fun _ h => h⟩
    refine r.host_only (fun p => by cases p <;> rfl) _ _ _ _ r.host r.leHost (fun j => ?_) r.le
    simp only [exec]
    split
    · rfl
    · exact r.policy j
  | leConnect k =>
    refine ⟨rfl, nofun, ?_, fun _ h => h⟩
    refine r.host_only (fun p => by cases p <;> rfl) _ _ _ _ r.host r.leHost r.policy ?_
    simp only [exec, r.le]
  | leDisconnect k =>
    refine ⟨rfl, nofun, ?_, fun _ h => h⟩
    refine r.host_only (fun p => by cases p <;> rfl) _ _ _ _ r.host r.leHost r.policy ?_
    simp [exec, r.le]

theorem run_ok {c : Caps} {xs : List Act} {s : St} {h : Host} (r : Rel s h) (hs : ∀ x ∈ xs, sound x = true)
    (hk : ∀ x ∈ xs, kept x = true) (hx : .soundingAllowed ∉ xs ∨ (.reset ∉ xs ∧ Same s h)) :
    run c s xs = expected c h xs := by
  induction xs generalizing s h with
  | nil => rfl
  | cons x xs ih =>
    simp only [List.mem_cons, not_or, forall_eq_or_imp] at hs hk hx
    obtain ⟨h1, h2, h3, h4⟩ := step_ok (c := c) r hs.1 hk.1 (fun e => by
      rcases hx with hx | hx
      · exact absurd e.symm hx.1
      · exact hx.2)
    have := ih h3 hs.2 hk.2 (by
      rcases hx with hx | hx
      · exact Or.inl hx.2
      · exact Or.inr ⟨hx.1.2, h4 (Ne.symm hx.1.1) hx.2⟩)
    simp only [run, expected]
    rw [← h1, ← this]

/-- **C79, in part.** After Reset, whatever the state before, each command of every history has the answer the host expects:
a read answers the value of the last write the controller accepted since Reset, or the default; the features on page 1 are
those switched on; a connection has the settings last written for it, or the default of the moment it was made; in the local
loopback mode nothing else changes. Left out are the reads that answer constants (`C79_constant_violated`), pages of features
that do not exist (`C79_page_violated`) and the check of channel sounding commands (`C79_sounding_violated`). -/
theorem C79_parameters_partial (c : Caps) (s : St) (xs : List Act) (hs : ∀ x ∈ xs, sound x = true)
    (hk : ∀ x ∈ xs, kept x = true) (hc : .soundingAllowed ∉ xs) :
    run c s (.reset :: xs) = expected c .reset (.reset :: xs) := by
  have : ∀ h, (expect c h .reset) = (.answer 0 [], .reset) := by intro h; simp [expect, inLoopback]
  simp only [run, expected, this]
  simp only [step, Act.looped, Bool.false_eq_true, and_false, if_false, exec]
  rw [run_ok (reset_ok s) hs hk (Or.inl hc)]

/-- What the host knows of a new controller: the name is the one of the device, and no inquiry access code is set. -/
def Host.fresh : Host := { Host.reset with
  value := fun p => match p with
    | .localName => [0x67, 0x44, 0x65, 0x76, 0x69, 0x63, 0x65, 0x2d, 0x48, 0x43, 0x49] ++ List.replicate 237 0
    | .currentIacLap => []
    | p => default p }

/-- **C79, in part.** The same for a new controller, before the first Reset: the parameters have their defaults, apart from
the name (that of the device) and the inquiry access codes (`C79_iac_violated`). Until then channel sounding commands are
allowed exactly if the host has switched the feature on. -/
theorem C79_new_partial (c : Caps) (xs : List Act) (hs : ∀ x ∈ xs, sound x = true) (hk : ∀ x ∈ xs, kept x = true)
    (hc : .soundingAllowed ∉ xs ∨ .reset ∉ xs) : run c .fresh xs = expected c .fresh xs := by
  refine run_ok ⟨fun p hp => ?_, rfl, rfl, fun _ => rfl, rfl⟩ hs hk (hc.imp id (fun h => ⟨h, rfl⟩))
  cases p <;> first
    | rfl
    | (cases hp; done)

/-- A history: values are written, refused, read and reset; a connection takes over the default policy; page 1 and the LE
features follow the host; the loopback mode stops all that. -/
example : run ⟨1, 2, 3, 2⟩ .fresh [.write .pageTimeout [5], .read .pageTimeout, .write .defaultLinkPolicy [9],
      .write .defaultLinkPolicy [5], .connect 7, .writePolicy 7 8, .readPolicy 7, .setFeature .secureConnections 1,
      .setFeature .leHost 1, .setFeature .leHost 0, .readFeatures 1, .setLeFeature 47 1, .readLeFeatures, .soundingAllowed,
      .write .currentIacLap [1, 2, 3], .read .currentIacLap, .write .loopbackMode [1], .read .pageTimeout,
      .read .loopbackMode, .reset, .read .pageTimeout, .readPolicy 7] =
    [.answer 0 [], .answer 0 [5], .answer 0x12 [], .answer 0 [], .none, .answer 0x12 [7], .answer 0 [7, 5], .answer 0 [],
      .answer 0 [], .answer 0 [], .answer 0 [1, 2, 8], .answer 0 [], .answer 0 [0x800000000003], .answer 0 [],
      .answer 0 [], .answer 0 [1, 2], .answer 0 [], .looped, .answer 0 [1], .answer 0 [], .answer 0 [0x2000],
      .answer 2 [7, 0]] := by decide +kernel

/-- **C79, false in part.** Five parameters can be written with any value; the read answers a constant, in every state, which
for the activity of page scans is not even the default. -/
theorem C79_constant_violated (c : Caps) (s : St) (v : List Nat) (hs : s.loopback = 0) (p : Par)
    (hp : p = .inquiryMode ∨ p = .pageScanType ∨ p = .inquiryScanType ∨ p = .pageScanActivity ∨ p = .inquiryScanActivity) :
    ∃ k, run c s [.write p v, .read p, .reset, .read p] = [.answer 0 [], .answer 0 k, .answer 0 [], .answer 0 k] ∧
      (p = .pageScanActivity → k ≠ default p) := by
  obtain ⟨a1, a2, a3, a4, a5, a6, a7, a8, a9, a10, a11, a12, a13, a14, a15, a16, a17, a18, a19, a20, a21, a22, a23, a24⟩ := s
  simp only at hs
  subst hs
  rcases hp with rfl | rfl | rfl | rfl | rfl
  · exact ⟨[0], rfl, nofun⟩
  · exact ⟨[0], rfl, nofun⟩
  · exact ⟨[0], rfl, nofun⟩
  · exact ⟨[0x1000, 0x12], rfl, fun _ => by decide⟩
  · exact ⟨[0x1000, 0x12], rfl, nofun⟩

/-- **C79, false in part.** Until the first Reset there is no inquiry access code, not even the general one. -/
theorem C79_iac_violated (c : Caps) : run c .fresh [.read .currentIacLap, .reset, .read .currentIacLap] =
    [.answer 0 [], .answer 0 [], .answer 0 (default .currentIacLap)] := rfl

/-- **C79, false in part.** Reset takes the channel sounding feature from the LE features, but its commands are still
allowed. -/
theorem C79_sounding_violated (c : Caps) (hc : c.leFeatures = 0) :
    run c .fresh [.setLeFeature 47 1, .reset, .readLeFeatures, .soundingAllowed] =
      [.answer 0 [], .answer 0 [], .answer 0 [0], .answer 0 []] := by
  simp [run, step, exec, Act.looped, setLeFeature, St.fresh, reset, hc]

/-- **C79, false in part.** A page of features above 2 is read from outside of the array. -/
theorem C79_page_violated (c : Caps) (s : St) (hs : s.loopback = 0) (page : Nat) (hp : 3 ≤ page) :
    run c s [.readFeatures page] = [.crash] := by
  have h0 : page ≠ 0 := by omega
  have h1 : page ≠ 1 := by omega
  have h2 : page ≠ 2 := by omega
  simp [run, step, hs, exec, readFeatures, h0, h1, h2]

end Verif.Reg
