import Verif.Le.LimitLemmas
/-!
# C46: limited advertising sets end
-/

namespace Verif.Le

/-- The clock reads `now` in some operation of `ops`. -/
def TicksAt (ops : List Op) (now : Nat) : Prop := Op.env (.tick now) ∈ ops

theorem reachable_step {cfg : Config} {s s1 : State} {op : Op} {st out} (hr : Reachable cfg s)
    (hs : step cfg s op = .ok s1 st out) : Reachable cfg s1 := by
  obtain ⟨a, ops0, h0⟩ := hr
  refine ⟨a, ops0 ++ [op], ?_⟩
  have : ∀ (l : List Op) (x : State), run cfg l x = some s → run cfg (l ++ [op]) x = some s1 := by
    intro l
    induction l with
    | nil => intro x hx; cases hx; simp [run, hs]
    | cons o l ihl =>
      intro x hx
      simp only [run, List.cons_append] at hx ⊢
      split at hx
      · exact ihl _ hx
      · cases hx
      · cases hx
  exact this _ _ h0

theorem reachable_runOut {cfg : Config} (ops : List Op) : ∀ {s s1 : State} {out}, Reachable cfg s →
    runOut cfg ops s = some (s1, out) → Reachable cfg s1 := by
  induction ops with
  | nil => intro s s1 out hr hx; cases hx; exact hr
  | cons op ops ih =>
    intro s s1 out hr hx
    simp only [runOut] at hx
    split at hx
    · rename_i hs
      split at hx
      · rename_i hrun
        cases hx
        exact ih (reachable_step hr hs) hrun
      · cases hx
    · cases hx
    · cases hx

/-- The history of one set from a state where it advertises. -/
theorem limited_history {cfg : Config} {h : UInt8} (ops : List Op) : ∀ {s s' : State} {out : List AdvOut}
    {timeout : Option Nat} {maxEvents done : Nat},
    Reachable cfg s → (∀ o ∈ ops, o.switches h = false) → maxEvents < 256 →
    (maxEvents ≠ 0 → done ≤ maxEvents) → runOut cfg ops s = some (s', out) →
    (Silent s h → Silent s' h ∧ about h out = []) ∧
    (Advertises s h timeout maxEvents done → ∃ pdus, (∀ o ∈ pdus, o.sentBy h = true) ∧
      (maxEvents ≠ 0 → done + pdus.length ≤ maxEvents) ∧
      ((about h out = pdus ∧
          (∃ n, Advertises s' h timeout maxEvents n ∧ (maxEvents ≠ 0 → n = done + pdus.length)) ∧
          (∀ t now, timeout = some t → TicksAt ops now → now < t) ∧
          (maxEvents ≠ 0 → maxEvents = done → ∀ now, ¬ TicksAt ops now)) ∨
       (about h out = pdus ++ [.setTerminated h (if maxEvents = 0 then 0 else done + pdus.length)] ∧
          Silent s' h))) := by
  induction ops with
  | nil =>
    intro s s' out timeout maxEvents done hr ho hm hd hx
    cases hx
    exact ⟨fun h => ⟨h, rfl⟩, fun ha => ⟨[], fun _ h => (nomatch h), fun h => by simpa using hd h,
      Or.inl ⟨rfl, ⟨done, ha, fun _ => by simp⟩, fun _ _ _ h => (nomatch h), fun _ _ _ h => (nomatch h)⟩⟩⟩
  | cons op ops ih =>
    intro s s' out timeout maxEvents done hr ho hm hd hx
    have ho1 := ho op List.mem_cons_self
    have ho2 : ∀ o ∈ ops, o.switches h = false := fun o h => ho o (List.mem_cons_of_mem _ h)
    simp only [runOut] at hx
    split at hx
    rotate_left
    · cases hx
    · cases hx
    rename_i s1 st out1 hs
    split at hx
    rotate_left
    · cases hx
    rename_i s2 out2 hrun
    cases hx
    have hr1 : Reachable cfg s1 := reachable_step hr hs
    rw [about_append]
    -- the operations that are not the clock
    have quiet : SameLimits s.extAdv s1.extAdv h → out1 = [] → (∀ now, op ≠ .env (.tick now)) →
        (Silent s h → Silent s' h ∧ about h out1 ++ about h out2 = []) ∧
        (Advertises s h timeout maxEvents done → ∃ pdus, (∀ o ∈ pdus, o.sentBy h = true) ∧
          (maxEvents ≠ 0 → done + pdus.length ≤ maxEvents) ∧
          ((about h out1 ++ about h out2 = pdus ∧
              (∃ n, Advertises s' h timeout maxEvents n ∧ (maxEvents ≠ 0 → n = done + pdus.length)) ∧
              (∀ t now, timeout = some t → TicksAt (op :: ops) now → now < t) ∧
              (maxEvents ≠ 0 → maxEvents = done → ∀ now, ¬ TicksAt (op :: ops) now)) ∨
           (about h out1 ++ about h out2 = pdus ++ [.setTerminated h (if maxEvents = 0 then 0 else done + pdus.length)] ∧
              Silent s' h))) := by
      intro hl hout hop
      obtain ⟨i1, i2⟩ := ih (timeout := timeout) hr1 ho2 hm hd hrun
      subst hout
      refine ⟨fun hsil => i1 (hl.2 hsil), fun ⟨a, a1, a2, a3, a4, a5⟩ => ?_⟩
      obtain ⟨a', b1, b2, b3, b4, b5⟩ := hl.1 a a1 a2
      obtain ⟨pdus, c1, c2, c3⟩ := i2 ⟨a', b1, b2, by rw [b3, a3], by rw [b4, a4], by rw [b5, a5]⟩
      refine ⟨pdus, c1, c2, ?_⟩
      have hmem : ∀ now, TicksAt (op :: ops) now → TicksAt ops now := by
        intro now h
        rcases List.mem_cons.1 h with h | h
        · exact absurd h.symm (hop now)
        · exact h
      rcases c3 with ⟨d1, d2, d3, d4⟩ | ⟨d1, d2⟩
      · exact Or.inl ⟨d1, d2, fun t now h1 h2 => d3 t now h1 (hmem now h2), fun h1 h2 now h3 => d4 h1 h2 now (hmem now h3)⟩
      · exact Or.inr ⟨d1, d2⟩
    cases op with
    | cmd c =>
      have hq : SameLimits s.extAdv s1.extAdv h ∧ out1 = [] := by
        simp only [step] at hs
        split at hs
        · rename_i hc
          cases hs
          exact ⟨runCmd_limits ho1 hc, rfl⟩
        · cases hs
      exact quiet hq.1 hq.2 (fun _ => nofun)
    | env v =>
      obtain ⟨he, -⟩ := step_env hs
      by_cases hv : ∀ now, v ≠ .tick now
      · obtain ⟨q1, q2⟩ := runEnv_limits ho1 hv he
        exact quiet q1 q2 (fun now h => hv now (by cases h; rfl))
      · have hv : ∃ now, v = .tick now := by
          apply Classical.byContradiction
          intro h
          exact hv (fun now e => h ⟨now, e⟩)
        obtain ⟨now, rfl⟩ := hv
        obtain ⟨m, hm1, hs1, rfl⟩ := runEnv_tick he
        obtain ⟨g, hg⟩ := advsOk_reachable hr
        have hs1' : s1.extAdv = m.1 := by rw [hs1]
        rw [about_append, tickLegacy_about, List.nil_append]
        rcases tickExtAll_about (h := h) _ _ hm1 hg.keys with ⟨k1, k2, k3⟩ | ⟨a, a', k1, k2, k3⟩
        · rw [k3]
          refine ⟨fun _ => ?_, fun ⟨b, hb, _⟩ => by rw [k1] at hb; cases hb⟩
          have hsil : Silent s1 h := fun b hb => by rw [hs1', k2] at hb; cases hb
          exact (ih (timeout := timeout) hr1 ho2 hm hd hrun).1 hsil
        · rw [← hs1'] at k2
          rcases k3 with ⟨e0, e1, e2⟩ | ⟨e0, e1, e2, e3⟩ | ⟨e0, e1, e2, e3, e4, e5, e6⟩
          · rw [e2]
            refine ⟨fun _ => ?_, fun ⟨b, hb, hb2, _⟩ => ?_⟩
            · have hsil : Silent s1 h := fun b hb => by rw [k2] at hb; cases hb; exact e1
              exact (ih (timeout := timeout) hr1 ho2 hm hd hrun).1 hsil
            · rw [k1] at hb; cases hb; rw [e0] at hb2; cases hb2
          · refine ⟨fun hx => absurd (hx a k1) (by rw [e0]; nofun), fun ⟨b, b1, b2, b3, b4, b5⟩ => ?_⟩
            rw [k1] at b1; cases b1
            have hsil : Silent s1 h := fun b hb => by rw [k2] at hb; cases hb; exact e1
            obtain ⟨f1, f2⟩ := (ih (timeout := timeout) hr1 ho2 hm hd hrun).1 hsil
            refine ⟨[], fun _ h => (nomatch h), fun h => by simpa using hd h, Or.inr ⟨?_, f1⟩⟩
            rw [f2, e3, b4, b5]; simp
          · refine ⟨fun hx => absurd (hx a k1) (by rw [e0]; nofun), fun ⟨b, b1, b2, b3, b4, b5⟩ => ?_⟩
            rw [k1] at b1; cases b1
            have htick : ∀ (P : Nat → Prop), P now → (∀ n, TicksAt ops n → P n) →
                ∀ n, TicksAt (Op.env (.tick now) :: ops) n → P n := by
              intro P h1 h2 n hn
              rcases List.mem_cons.1 hn with hn | hn
              · cases hn; exact h1
              · exact h2 n hn
            rcases e6 with ⟨g1, g2⟩ | ⟨o, g0, g1, g2⟩
            · obtain ⟨pdus, c1, c2, c3⟩ := (ih (timeout := timeout) hr1 ho2 hm hd hrun).2
                ⟨a', k2, e1, by rw [e2, b3], by rw [e3, b4], by rw [g2, b5]⟩
              rw [g1]
              refine ⟨pdus, c1, c2, ?_⟩
              rcases c3 with ⟨d1, d2, d3, d4⟩ | ⟨d1, d2⟩
              · refine Or.inl ⟨d1, d2, fun t n h1 h2 => ?_, fun h1 h2 => by rw [b4, b5] at e5; omega⟩
                exact htick (· < t) (e4 t (by rw [b3, h1])) (fun n hn => d3 t n h1 hn) n h2
              · exact Or.inr ⟨d1, d2⟩
            · have hd' : maxEvents ≠ 0 → (done + 1) % 256 = done + 1 := by
                rw [b4, b5] at e5; intro h; apply Nat.mod_eq_of_lt; omega
              obtain ⟨pdus, c1, c2, c3⟩ := (ih (timeout := timeout) (done := (done + 1) % 256) hr1 ho2 hm
                (fun h => by rw [hd' h]; rw [b4, b5] at e5; omega) hrun).2
                ⟨a', k2, e1, by rw [e2, b3], by rw [e3, b4], by rw [g2, b5]⟩
              rw [g1]
              refine ⟨o :: pdus, ?_, fun h => ?_, ?_⟩
              · intro x hx
                rcases List.mem_cons.1 hx with rfl | hx
                · exact g0
                · exact c1 x hx
              · have := c2 h
                rw [hd' h] at this
                simp only [List.length_cons]; omega
              · rcases c3 with ⟨d1, ⟨n, d2, d2'⟩, d3, d4⟩ | ⟨d1, d2⟩
                · refine Or.inl ⟨by rw [d1]; rfl, ⟨n, d2, fun h => ?_⟩, fun t n h1 h2 => ?_,
                    fun h1 h2 => by rw [b4, b5] at e5; omega⟩
                  · rw [d2' h, hd' h, List.length_cons]; omega
                  · exact htick (· < t) (e4 t (by rw [b3, h1])) (fun n hn => d3 t n h1 hn) n h2
                · refine Or.inr ⟨?_, d2⟩
                  rw [d1]
                  by_cases h : maxEvents = 0
                  · simp [h]
                  · rw [hd' h]
                    have : done + 1 + pdus.length = done + (pdus.length + 1) := by omega
                    simp [h, this]

/-- **C46.** From any reachable state in which the set `h` has just been enabled, and
whatever the host and the peers do short of switching the set, the set sends some
advertising PDUs, no more than its limit of events, and then either

* is still advertising, in which case no terminated event was sent for it and no tick
  reached its duration; or
* has ended: the host got exactly one terminated event for it, after all its PDUs, with
  the number of events if that was limited and zero otherwise, nothing was sent
  after it, and the set is disabled. -/
theorem C46_limited_set {cfg : Config} {h : UInt8} {ops : List Op} {s s' : State} {out : List AdvOut}
    {timeout : Option Nat} {maxEvents : Nat} (hr : Reachable cfg s) (ho : ∀ o ∈ ops, o.switches h = false)
    (hm : maxEvents < 256) (ha : Advertises s h timeout maxEvents 0) (hx : runOut cfg ops s = some (s', out)) :
    ∃ pdus, (∀ o ∈ pdus, o.sentBy h = true) ∧ (maxEvents ≠ 0 → pdus.length ≤ maxEvents) ∧
      ((about h out = pdus ∧ (∃ n, Advertises s' h timeout maxEvents n) ∧
          ∀ t now, timeout = some t → TicksAt ops now → now < t) ∨
       (about h out = pdus ++ [.setTerminated h (if maxEvents = 0 then 0 else pdus.length)] ∧ Silent s' h)) := by
  obtain ⟨pdus, c1, c2, c3⟩ := (limited_history (done := 0) ops hr ho hm (fun _ => Nat.zero_le _) hx).2 ha
  simp only [Nat.zero_add] at c2 c3
  refine ⟨pdus, c1, c2, ?_⟩
  rcases c3 with ⟨d1, ⟨n, d2, -⟩, d3, -⟩ | ⟨d1, d2⟩
  · exact Or.inl ⟨d1, ⟨n, d2⟩, d3⟩
  · exact Or.inr ⟨d1, d2⟩

/-- **C46 (duration).** A tick at or after the end of the duration finds the set ended
or ends it, whatever happened in between: one terminated event has been sent. -/
theorem C46_duration {cfg : Config} {h : UInt8} {ops : List Op} {s s' : State} {out : List AdvOut}
    {t maxEvents now : Nat} (hr : Reachable cfg s) (ho : ∀ o ∈ ops, o.switches h = false)
    (hm : maxEvents < 256) (ha : Advertises s h (some t) maxEvents 0) (hx : runOut cfg ops s = some (s', out))
    (ht : TicksAt ops now) (hn : t ≤ now) :
    Silent s' h ∧ (out.filter (·.endOf h)).length = 1 := by
  obtain ⟨pdus, c1, c2, c3⟩ := C46_limited_set hr ho hm ha hx
  rcases c3 with ⟨-, -, d3⟩ | ⟨d1, d2⟩
  · have := d3 t now rfl ht; omega
  · refine ⟨d2, ?_⟩
    have hsub : out.filter (·.endOf h) = (about h out).filter (·.endOf h) := by
      rw [about, List.filter_filter]
      congr 1
      funext o
      cases o.endOf h <;> simp
    have hp : pdus.filter (·.endOf h) = [] := by
      rw [List.filter_eq_nil_iff]
      intro o ho1
      have := c1 o ho1
      cases o <;> simp_all [AdvOut.sentBy, AdvOut.endOf]
    rw [hsub, d1, List.filter_append, hp]
    simp [AdvOut.endOf]

/-- **C46 (number of events).** Once the set has sent as many PDUs as its limit, the
next tick ends it. -/
theorem C46_max_events {cfg : Config} {h : UInt8} {ops1 ops2 : List Op} {s s1 s2 : State}
    {out1 out2 : List AdvOut} {timeout : Option Nat} {maxEvents now : Nat} (hr : Reachable cfg s)
    (ho1 : ∀ o ∈ ops1, o.switches h = false) (ho2 : ∀ o ∈ ops2, o.switches h = false)
    (hm : maxEvents < 256) (hm0 : maxEvents ≠ 0) (ha : Advertises s h timeout maxEvents 0)
    (hx1 : runOut cfg ops1 s = some (s1, out1)) (hx2 : runOut cfg ops2 s1 = some (s2, out2))
    (hsent : (out1.filter (·.sentBy h)).length = maxEvents) (ht : TicksAt ops2 now) :
    Silent s2 h := by
  have hr1 := reachable_runOut ops1 hr hx1
  obtain ⟨pdus, c1, c2, c3⟩ := (limited_history (done := 0) ops1 hr ho1 hm (fun _ => Nat.zero_le _) hx1).2 ha
  have hsub : out1.filter (·.sentBy h) = (about h out1).filter (·.sentBy h) := by
    rw [about, List.filter_filter]
    congr 1
    funext o
    cases o.sentBy h <;> simp
  have hp : pdus.filter (·.sentBy h) = pdus := List.filter_eq_self.2 c1
  simp only [Nat.zero_add] at c2 c3
  rcases c3 with ⟨d1, ⟨n, d2, d3⟩, -, -⟩ | ⟨d1, d2⟩
  · rw [hsub, d1, hp] at hsent
    have hn := d3 hm0
    rw [hsent] at hn
    subst hn
    obtain ⟨pdus2, f1, f2, f3⟩ := (limited_history (timeout := timeout) (maxEvents := n) (done := n) ops2 hr1 ho2 hm
      (fun _ => Nat.le_refl _) hx2).2 d2
    rcases f3 with ⟨-, -, -, g4⟩ | ⟨-, g2⟩
    · exact absurd ht (g4 hm0 rfl now)
    · exact g2
  · exact ((limited_history (timeout := timeout) (maxEvents := maxEvents) (done := 0) ops2 hr1 ho2 hm
      (fun _ => Nat.zero_le _) hx2).1 d2).1

/-- A history that enables set 5 for at most 2 events. -/
def limitedHistory : List Op :=
  [.cmd (.setExtAdvertisingParameters 5 {
      properties := {}, intervalMin := 0x20, intervalMax := 0x40, channelMap := 7, own := .pub, peerType := .pub,
      peer := 0, policy := .allDevices, txPower := 0, primaryPhy := .le1m, secondaryMaxSkip := 0,
      secondaryPhy := .le1m, sid := 3, scanRequestNotification := false }),
   .cmd (.setExtAdvertisingEnable 1000 (fun _ _ => 0) true [⟨5, 100, 2⟩])]

/-- Such a state is reachable, and ticks make the set send two PDUs and end. -/
example : ∃ s s' out, run Config.default limitedHistory (initial none) = some s ∧
    Advertises s 5 (some 1001000) 2 0 ∧
    runOut Config.default [.env (.tick 1000), .env (.tick 30000), .cmd .clearAdvertisingSets, .env (.tick 31000)] s =
      some (s', out) ∧
    (out.filter (·.sentBy 5)).length = 2 ∧ (out.filter (·.endOf 5)) = [.setTerminated 5 2] ∧ Silent s' 5 := by
  refine ⟨_, _, _, rfl, ⟨_, rfl, rfl, rfl, rfl, rfl⟩, rfl, by decide +kernel, by decide +kernel, ?_⟩
  intro a ha
  cases ha
  rfl

/-- None of these operations switches the set. -/
example : ∀ o ∈ [Op.env (.tick 1000), .env (.tick 30000), .cmd .clearAdvertisingSets, .env (.tick 31000)],
    o.switches 5 = false := by
  decide +kernel

end Verif.Le
