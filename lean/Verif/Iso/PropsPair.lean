import Verif.Iso.PairSteps
/-!
# C116: both ends of a link agree about its isochronous streams

The specification is in `Verif/Iso/SpecPair.lean`: two devices, their hosts and the PDUs between them, in all interleavings and for
all iteration orders. The full property, that the two ends agree whenever no PDU is on its way, is false for hosts that are impatient:
see the violations below. The theorems are for patient hosts, hence the suffix.
-/
namespace Verif.Iso
open Verif.Le

theorem hasA {la lb : Nat} {p : Pair} (h : PairInv la lb p) (y : Id) : HasStream p.a la y ↔ HasSt p.a.cises y .connected :=
  ⟨fun ⟨c, hc, _, h2, h3⟩ => ⟨c, hc, h2, h3⟩, fun ⟨c, hc, h2, h3⟩ => ⟨c, hc, (h.central.cises c hc).acl (by rw [h3]; exact nofun), h2, h3⟩⟩

theorem askA {la lb : Nat} {p : Pair} (h : PairInv la lb p) (y : Id) : Asking p.a la y ↔ HasSt p.a.cises y .pendingRsp :=
  ⟨fun ⟨c, hc, _, h2, h3⟩ => ⟨c, hc, h2, h3⟩, fun ⟨c, hc, h2, h3⟩ => ⟨c, hc, (h.central.cises c hc).acl (by rw [h3]; exact nofun), h2, h3⟩⟩

theorem hasB {la lb : Nat} {p : Pair} (h : PairInv la lb p) (y : Id) : HasStream p.b lb y ↔ mapOf p.b.cises y = some .connected := by
  rw [mapOf_iff (st := .connected) h.peri.uniq nofun]
  exact ⟨fun ⟨c, hc, _, h2, h3⟩ => ⟨c, hc, h2, h3⟩,
    fun ⟨c, hc, h2, h3⟩ => ⟨c, hc, ((h.peri.cises c hc).role (by rw [h3]; exact nofun)).2.1, h2, h3⟩⟩

theorem offB {la lb : Nat} {p : Pair} (h : PairInv la lb p) (y : Id) : Offered p.b lb y ↔ mapOf p.b.cises y = some .pendingAccept := by
  rw [mapOf_iff (st := .pendingAccept) h.peri.uniq nofun]
  exact ⟨fun ⟨c, hc, _, h2, h3⟩ => ⟨c, hc, h2, h3⟩,
    fun ⟨c, hc, h2, h3⟩ => ⟨c, hc, ((h.peri.cises c hc).role (by rw [h3]; exact nofun)).2.1, h2, h3⟩⟩

/-- When no PDU is on its way, the two ends have the same streams. -/
theorem C116_agree_partial {la lb : Nat} {p : Pair} (h : PairReach Patient la lb p) (h1 : p.ab = []) (h2 : p.ba = []) (y : Nat × Nat) :
    HasStream p.a la y ↔ HasStream p.b lb y := by
  have hp := pairInv h
  have hx := hp.proto
  rw [h1, h2] at hx
  rw [hasA hp, hasB hp, hx.both y]
  simp [star]

/-- When no PDU is on its way, the central waits for the answer about a stream exactly if the peripheral's host was asked for it and
did not answer, and there is at most one such stream. The peripheral does not wait for anything. -/
theorem C116_wait_partial {la lb : Nat} {p : Pair} (h : PairReach Patient la lb p) (h1 : p.ab = []) (h2 : p.ba = []) :
    (∀ y, Asking p.a la y ↔ Offered p.b lb y) ∧ (∀ y z, Asking p.a la y → Asking p.a la z → y = z) ∧
    ∀ c ∈ p.b.cises, c.state ≠ .pendingInd := by
  have hp := pairInv h
  have hx := hp.proto
  rw [h1, h2] at hx
  have hstar : star (mapOf p.b.cises) [] = mapOf p.b.cises := rfl
  have key : (∀ y, HasSt p.a.cises y .pendingRsp ↔ mapOf p.b.cises y = some .pendingAccept) ∧
      (∀ y z, HasSt p.a.cises y .pendingRsp → HasSt p.a.cises z .pendingRsp → y = z) ∧ ∀ y, mapOf p.b.cises y ≠ some .pendingInd := by
    cases hx.stage with
    | idle g1 g2 g3 =>
      refine ⟨fun y => ⟨fun hy => absurd hy (g1 y), fun hy => ?_⟩, fun y _ hy => absurd hy (g1 y), fun y hy => ?_⟩
      · have := g3 y (by rw [List.map_nil, hstar, hy]; exact nofun)
        rw [List.map_nil, hstar, hy] at this; cases this
      · have := g3 y (by rw [List.map_nil, hstar, hy]; exact nofun)
        rw [List.map_nil, hstar, hy] at this; cases this
    | offered x g1 g2 g3 g4 =>
      rw [List.map_nil, hstar] at g3 g4
      refine ⟨fun y => ⟨fun hy => by rw [(g1 y).1 hy]; exact g3, fun hy => (g1 y).2 ?_⟩, fun y z hy hz => by rw [(g1 y).1 hy, (g1 z).1 hz], fun y hy => ?_⟩
      · apply Classical.byContradiction
        intro e
        have := g4 y e (by rw [hy]; exact nofun)
        rw [hy] at this; cases this
      · by_cases e : y = x
        · rw [e, g3] at hy; cases hy
        · have := g4 y e (by rw [hy]; exact nofun)
          rw [hy] at this; cases this
    | accepted x g1 g2 g3 g4 => cases g2
    | rejected x g1 g2 g3 g4 => cases g2
  refine ⟨fun y => by rw [askA hp, offB hp]; exact key.1 y, fun y z hy hz => ?_, fun c hc hst => ?_⟩
  · rw [askA hp] at hy hz
    exact key.2.1 y z hy hz
  · exact key.2.2 c.ids ((mapOf_iff (st := .pendingInd) hp.peri.uniq nofun).2 ⟨c, hc, rfl, hst⟩)

/-- At all times: a stream of the peripheral is one of the central, unless the central has just ended it; and a stream of the central
is one of the peripheral, unless the peripheral has just ended it or was not yet told that it is established. -/
theorem C116_always_partial {la lb : Nat} {p : Pair} (h : PairReach Patient la lb p) (y : Nat × Nat) :
    (HasStream p.b lb y → HasStream p.a la y ∨ ∃ e, .terminateInd y.1 y.2 e ∈ p.ab) ∧
    (HasStream p.a la y → HasStream p.b lb y ∨ (∃ e, .terminateInd y.1 y.2 e ∈ p.ba) ∨ ∃ i j, .cisInd i j ∈ p.ab) := by
  have hp := pairInv h
  have hx := hp.proto
  have term : ∀ {l : List Pdu}, Msg.term y ∈ l.map Pdu.msg → ∃ e, .terminateInd y.1 y.2 e ∈ l := by
    intro l hl
    obtain ⟨q, hq, he⟩ := List.mem_map.1 hl
    cases q <;> cases he
    exact ⟨_, hq⟩
  have ind : ∀ {l : List Pdu}, Msg.ind ∈ l.map Pdu.msg → ∃ i j, .cisInd i j ∈ l := by
    intro l hl
    obtain ⟨q, hq, he⟩ := List.mem_map.1 hl
    cases q <;> cases he
    exact ⟨_, _, hq⟩
  constructor
  · intro hb
    have hb := (hasB hp y).1 hb
    by_cases ht : Msg.term y ∈ p.ab.map Pdu.msg
    · exact .inr (term ht)
    · refine .inl ((hasA hp y).2 ((hx.both y).2 (.inl (star_conn hb (fun hr => ?_) ht))))
      obtain ⟨l, k, hl⟩ := List.append_of_mem hr
      refine star_some (by rw [hb]; exact nofun) (fun hx => ht ?_) (hx.fresh l k y hl).2
      rw [hl]
      exact List.mem_append.2 (.inl hx)
  · intro ha
    rcases (hx.both y).1 ((hasA hp y).1 ha) with hw | ht
    · have hnr : Msg.req y ∉ p.ab.map Pdu.msg := fun hr => by
        have := hx.pending (.inr hr)
        rw [hw] at this; cases this
      cases hm : mapOf p.b.cises y with
      | none => rw [star_none hm hnr] at hw; cases hw
      | some st =>
        cases st with
        | connected => exact .inl ((hasB hp y).2 hm)
        | configuration => exact absurd hm (mapOf_conf y)
        | pendingAccept => rw [hx.pending (.inl hm)] at hw; cases hw
        | pendingInd =>
          refine .inr (.inr (ind ?_))
          apply Classical.byContradiction
          intro hi
          rw [hx.due y hm hi] at hw; cases hw
        | pendingRsp =>
          obtain ⟨⟨c, hc, -, hst⟩, -⟩ := mapOf_some hm
          exact absurd hst ((hp.peri.cises c hc).role (by rw [hst]; exact nofun)).2.2
    · exact .inr (.inl (term ht))

/-! ### Cases -/

/-- The steps of a history, computed. -/
def pairRun (la lb : Nat) : Pair → List Move → Option Pair
  | p, [] => some p
  | p, .hostA c :: ms => match step fullEnv p.a (.hci c) with
    | .ok (a, outs) => pairRun la lb { p with a := a, ab := p.ab ++ sentOver la outs } ms
    | .error _ => none
  | p, .hostB c :: ms => match step fullEnv p.b (.hci c) with
    | .ok (b, outs) => pairRun la lb { p with b := b, ba := p.ba ++ sentOver lb outs } ms
    | .error _ => none
  | p, .toA :: ms => match p.ba with
    | [] => none
    | x :: rest => match step fullEnv p.a (.llcp la x) with
      | .ok (a, outs) => pairRun la lb { p with a := a, ab := p.ab ++ sentOver la outs, ba := rest } ms
      | .error _ => none
  | p, .toB :: ms => match p.ab with
    | [] => none
    | x :: rest => match step fullEnv p.b (.llcp lb x) with
      | .ok (b, outs) => pairRun la lb { p with b := b, ba := p.ba ++ sentOver lb outs, ab := rest } ms
      | .error _ => none
  | _, _ :: _ => none

theorem pairRun_reach {la lb : Nat} {p q : Pair} {ms : List Move} (hp : PairReach (fun _ _ => True) la lb p)
    (h : pairRun la lb p ms = some q) : PairReach (fun _ _ => True) la lb q := by
  induction ms generalizing p with
  | nil => cases h; exact hp
  | cons m ms ih =>
    cases m <;> simp only [pairRun] at h
    case hostA => split at h <;> first | exact ih (hp.step trivial (.hostA (by assumption))) h | cases h
    case hostB => split at h <;> first | exact ih (hp.step trivial (.hostB (by assumption))) h | cases h
    case toA =>
      split at h
      · cases h
      · split at h <;> first | exact ih (hp.step trivial (.toA (by assumption) (by assumption))) h | cases h
    case toB =>
      split at h
      · cases h
      · split at h <;> first | exact ih (hp.step trivial (.toB (by assumption) (by assumption))) h | cases h
    all_goals cases h

/-- The state after the steps. -/
def pairAfter (ms : List Move) : Pair := (pairRun 0x10 0x20 (.start 0x10 0x20) ms).getD (.start 0x10 0x20)

theorem pairAfter_reach {ms : List Move} (h : (pairRun 0x10 0x20 (.start 0x10 0x20) ms).isSome = true) :
    PairReach (fun _ _ => True) 0x10 0x20 (pairAfter ms) := by
  obtain ⟨q, hq⟩ := Option.isSome_iff_exists.1 h
  have := pairRun_reach .start hq
  unfold pairAfter
  rw [hq]
  exact this

instance {s : State} {l : Nat} {y : Nat × Nat} : Decidable (HasStream s l y) := by unfold HasStream; infer_instance
instance {s : State} {l : Nat} {y : Nat × Nat} : Decidable (Offered s l y) := by unfold Offered; infer_instance
instance {s : State} {l : Nat} {y : Nat × Nat} : Decidable (Asking s l y) := by unfold Asking; infer_instance

/-- Patient hosts: the central creates two streams, the first is accepted and established, the second is offered. -/
example : ∃ p, PairReach Patient 0x10 0x20 p ∧ p.ab = [] ∧ p.ba = [] ∧ HasStream p.a 0x10 (3, 1) ∧ HasStream p.b 0x20 (3, 1) ∧
    Asking p.a 0x10 (3, 2) ∧ Offered p.b 0x20 (3, 2) := by
  refine ⟨_, .step (.step (.step (.step (.step (.step (.step .start
    (m := .hostA exampleCig) trivial (.hostA (env := fullEnv) rfl))
    (m := .hostA (.createCis [(0xE00, 0x10), (0xE01, 0x10)])) ⟨rfl, by decide +kernel⟩ (.hostA (env := fullEnv) rfl))
    (m := .toB) trivial (.toB (env := fullEnv) rfl rfl))
    (m := .hostB (.acceptCis 0xE00)) trivial (.hostB (env := fullEnv) rfl))
    (m := .toA) trivial (.toA (env := fullEnv) rfl rfl))
    (m := .toB) trivial (.toB (env := fullEnv) rfl rfl))
    (m := .toB) trivial (.toB (env := fullEnv) rfl rfl), rfl, rfl, ?_⟩
  decide +kernel

/-- Both hosts end a stream at the same time, and the central creates it again at once: the peripheral's wish ends the new attempt on
the central only, and the answer for it is later taken for that of another stream. -/
theorem C116_cross_violated : ∃ p, PairReach (fun _ _ => True) 0x10 0x20 p ∧ p.ab = [] ∧ p.ba = [] ∧
    HasStream p.a 0x10 (3, 2) ∧ ¬ HasStream p.b 0x20 (3, 2) ∧ ¬ HasStream p.a 0x10 (3, 1) ∧ HasStream p.b 0x20 (3, 1) :=
  ⟨pairAfter [.hostA exampleCig, .hostA (.createCis [(0xE00, 0x10)]), .toB, .hostB (.acceptCis 0xE00), .toA, .toB,
    .hostA (.disconnect 0xE00 0x13), .hostB (.disconnect 0xE00 0x13), .hostA (.createCis [(0xE00, 0x10)]), .toA, .toB, .toB,
    .hostB (.acceptCis 0xE00), .hostA (.createCis [(0xE01, 0x10)]), .toA, .toB, .toB], pairAfter_reach (by decide +kernel),
    by decide +kernel⟩

/-- The central's host gives up a stream and creates it again while the answer to the first request is on its way: the answer is
taken for that to the second request, and only the central has the stream. -/
theorem C116_cancel_violated : ∃ p, PairReach (fun _ _ => True) 0x10 0x20 p ∧ p.ab = [] ∧ p.ba = [] ∧
    HasStream p.a 0x10 (3, 1) ∧ ¬ HasStream p.b 0x20 (3, 1) :=
  ⟨pairAfter [.hostA exampleCig, .hostA (.createCis [(0xE00, 0x10)]), .toB, .hostB (.acceptCis 0xE00),
    .hostA (.disconnect 0xE00 0x13), .hostA (.createCis [(0xE00, 0x10)]), .toA, .toB, .toB, .toB], pairAfter_reach (by decide +kernel),
    by decide +kernel⟩

/-- The central's host creates two streams with two commands, and the peripheral's host accepts the second first: the central has the
first and the peripheral the second. -/
theorem C116_two_violated : ∃ p, PairReach (fun _ _ => True) 0x10 0x20 p ∧ p.ab = [] ∧ p.ba = [] ∧
    HasStream p.a 0x10 (3, 1) ∧ ¬ HasStream p.b 0x20 (3, 1) ∧ ¬ HasStream p.a 0x10 (3, 2) ∧ HasStream p.b 0x20 (3, 2) :=
  ⟨pairAfter [.hostA exampleCig, .hostA (.createCis [(0xE00, 0x10)]), .hostA (.createCis [(0xE01, 0x10)]), .toB, .toB,
    .hostB (.acceptCis 0xE01), .toA, .toB], pairAfter_reach (by decide +kernel), by decide +kernel⟩

/-- The peripheral's host may even accept both in either order; what the central then does with the answers depends on an iteration
order. With one order the two ends agree. -/
example : ∃ p, PairReach (fun _ _ => True) 0x10 0x20 p ∧ p.ab = [] ∧ p.ba = [] ∧
    HasStream p.a 0x10 (3, 1) ∧ HasStream p.b 0x20 (3, 1) ∧ HasStream p.a 0x10 (3, 2) ∧ HasStream p.b 0x20 (3, 2) :=
  ⟨pairAfter [.hostA exampleCig, .hostA (.createCis [(0xE00, 0x10)]), .hostA (.createCis [(0xE01, 0x10)]), .toB, .toB,
    .hostB (.acceptCis 0xE01), .hostB (.acceptCis 0xE00), .toA, .toA, .toB, .toB], pairAfter_reach (by decide +kernel), by decide +kernel⟩

end Verif.Iso
