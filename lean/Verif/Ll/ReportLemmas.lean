import Verif.Ll.FrameLemmas
import Verif.Ll.SpecReport
/-!
# Reports: helper lemmas
-/

namespace Verif.Ll
open Verif.Le

theorem fragmentLoop_whole (max : Nat) (hm : 0 < max) (data : List UInt8) : ∀ (fuel offset : Nat),
    data.length ≤ offset + fuel → WholeSeries max (data.drop offset) (fragmentLoop max data fuel offset) := by
  intro fuel
  induction fuel with
  | zero =>
    intro offset h
    have hl : data.length - offset = 0 := by omega
    refine ⟨?_, ?_, [], _, rfl, ?_, ?_⟩
    · simp [fragmentLoop, List.drop_eq_nil_of_le (show data.length ≤ offset by omega)]
    · intro f hf
      simp only [fragmentLoop, List.mem_singleton] at hf
      subst hf
      simp [hl]
    · simp [hl]
    · intro f hf; cases hf
  | succ fuel ih =>
    intro offset h
    simp only [fragmentLoop]
    by_cases hc : offset + min max (data.length - offset) < data.length
    · rw [if_pos hc]
      have hmin : min max (data.length - offset) = max := by omega
      obtain ⟨h1, h2, init, last, h3, h4, h5⟩ := ih (offset + min max (data.length - offset)) (by omega)
      refine ⟨?_, ?_, (decide (data.length - offset ≤ max), (data.drop offset).take (min max (data.length - offset))) :: init, last, ?_, h4, ?_⟩
      · simp only [List.map_cons, List.flatten_cons, h1]
        rw [← List.drop_drop, List.take_append_drop]
      · intro f hf
        rcases List.mem_cons.mp hf with rfl | hf
        · simp only [List.length_take, List.length_drop]; omega
        · exact h2 f hf
      · rw [h3]; rfl
      · intro f hf
        rcases List.mem_cons.mp hf with rfl | hf
        · simp only [decide_eq_false_iff_not]; omega
        · exact h5 f hf
    · rw [if_neg hc]
      have hle : data.length - offset ≤ max := by omega
      refine ⟨?_, ?_, [], _, rfl, ?_, ?_⟩
      · simp only [List.map_cons, List.map_nil, List.flatten_cons, List.flatten_nil, List.append_nil]
        exact List.take_of_length_le (by rw [List.length_drop]; omega)
      · intro f hf
        simp only [List.mem_singleton] at hf
        subst hf
        simp only [List.length_take, List.length_drop]; omega
      · simp [hle]
      · intro f hf; cases hf

/-- The fragments of some data are a whole series. -/
theorem fragments_whole (max : Nat) (hm : 0 < max) (data : List UInt8) :
    WholeSeries max data (fragments max data) := by
  have := fragmentLoop_whole max hm data data.length 0 (by omega)
  simpa [fragments] using this

theorem WholeSeries.ne_nil {max : Nat} {data : List UInt8} {l : List (Bool × List UInt8)}
    (h : WholeSeries max data l) : l ≠ [] := by
  obtain ⟨-, -, init, last, rfl, -, -⟩ := h
  simp

/-- One report carries everything that fits. -/
theorem WholeSeries.single {max : Nat} {data : List UInt8} (h : data.length ≤ max) :
    WholeSeries max data [(true, data)] :=
  ⟨by simp, by simpa using h, [], _, rfl, rfl, by simp⟩

theorem extReportsOf_append (a b : List Out) :
    extReportsOf (a ++ b) = extReportsOf a ++ extReportsOf b := by simp [extReportsOf]

theorem extReportsOf_map {α : Type} (l : List α) (f : α → ExtReport) :
    extReportsOf (l.map (fun x => .extReport (f x))) = l.map f := by
  induction l with
  | nil => rfl
  | cons a l ih => simp only [List.map_cons]; rw [← ih]; rfl

theorem legacyReportsOf_append (a b : List Out) :
    legacyReportsOf (a ++ b) = legacyReportsOf a ++ legacyReportsOf b := by simp [legacyReportsOf]

theorem scanRequest_noReports {cfg : Config} {rnd : Irk → Address} {s : State}
    {adv r : AddressWithType} {sc fr : Bool} {req : ScanRequest} {x : State × List Out}
    (h : scanRequest cfg rnd s adv r sc fr req = .ok x) :
    extReportsOf x.2 = [] ∧ legacyReportsOf x.2 = [] := by
  rcases (scanRequest_frame h).2 with h | ⟨own, h⟩ <;> (rw [h]; exact ⟨rfl, rfl⟩)

theorem connectLegacy_noReports {ah : Hash} {cfg : Config} {rnd : Irk → Address} {s : State}
    {p : LegacyPdu} {x : State × List Out} (h : connectLegacy ah cfg rnd s p = .ok x) :
    extReportsOf x.2 = [] ∧ legacyReportsOf x.2 = [] := by
  rcases connectLegacy_frame h with ⟨l, rfl⟩ | ⟨l, own, -, -, -, rfl⟩ <;> exact ⟨rfl, rfl⟩

theorem connectExtended_noReports {ah : Hash} {cfg : Config} {rnd : Irk → Address} {s : State}
    {p : ExtPdu} {x : State × List Out} (h : connectExtended ah cfg rnd s p = .ok x) :
    extReportsOf x.2 = [] ∧ legacyReportsOf x.2 = [] := by
  rcases connectExtended_frame h with ⟨l, rfl⟩ | ⟨l, own, -, -, -, rfl⟩ <;> exact ⟨rfl, rfl⟩

end Verif.Ll
