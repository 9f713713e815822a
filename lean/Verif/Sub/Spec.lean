import Verif.Sub.Model
/-!
# What the timing of a connection must satisfy

Bluetooth Core, Vol 6, Part B, 4.5.1 and Vol 4, Part E, 7.8.123-124. Times are in units of 10 µs, so that
an interval (1.25 ms) is 125 units and a timeout (10 ms) is 1000 units. -/
namespace Verif.Sub

/-- The subrate factor lies in 1..500, the continuation number is below it, at most 500 events are skipped,
and the time the peripheral may sleep is less than half the supervision timeout. -/
structure Legal (t : Timing) : Prop where
  factor_pos : 1 ≤ t.factor
  factor_le : t.factor ≤ 500
  cont_lt : t.cont < t.factor
  events : t.factor * (t.latency + 1) ≤ 500
  sleep : 2 * (125 * t.interval * t.factor * (t.latency + 1)) < 1000 * t.timeout

instance (t : Timing) : Decidable (Legal t) :=
  decidable_of_iff (1 ≤ t.factor ∧ t.factor ≤ 500 ∧ t.cont < t.factor ∧ t.factor * (t.latency + 1) ≤ 500 ∧
      2 * (125 * t.interval * t.factor * (t.latency + 1)) < 1000 * t.timeout)
    ⟨fun ⟨a, b, c, d, e⟩ => ⟨a, b, c, d, e⟩, fun ⟨a, b, c, d, e⟩ => ⟨a, b, c, d, e⟩⟩

/-- The ranges of the parameters of the two subrating commands, taken one by one. -/
def InRange (min max latency cont timeout : Nat) : Prop :=
  1 ≤ min ∧ min ≤ max ∧ max ≤ 500 ∧ latency ≤ 499 ∧ cont ≤ 499 ∧ 10 ≤ timeout ∧ timeout ≤ 3200

instance : Decidable (InRange a b c d t) := by unfold InRange; infer_instance

/-- What an end accepts is never empty. -/
def Accept.ok (a : Accept) : Prop := 1 ≤ a.min ∧ a.min ≤ a.max ∧ a.max ≤ 500

instance (a : Accept) : Decidable a.ok := by unfold Accept.ok; infer_instance

/-- The command is one of those after which the two ends keep the same view of the link: the central does
not use LE connection update, the peripheral does not answer parameter requests in the central's place,
and a refusal carries an error. -/
def Act.cautious : Act → Prop
  | .hostC (.connectionUpdate ..) => False
  | .hostP (.paramReply ..) => False
  | .hostC (.paramRefuse r) => r ≠ .success
  | .hostP (.paramRefuse r) => r ≠ .success
  | _ => True

/-- The peripheral's host does not ask for subrating. -/
def Act.noRequest : Act → Prop
  | .hostP (.subrateRequest ..) => False
  | _ => True

/-- All commands fit into their packets. -/
def Act.wf : Act → Prop
  | .hostC c => c.wf
  | .hostP c => c.wf
  | _ => True

end Verif.Sub
