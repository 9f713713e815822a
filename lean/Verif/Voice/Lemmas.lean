import Verif.Voice.Model
import Verif.Br.Spec
/-! # Lemmas about enhanced synchronous connections -/
namespace Verif.Voice
open Verif.Br (Ctl Cmd Ev Net NAct Res Status nstep nrun putA putB)

theorem differ_false {a b : Coding} : differ a b = false ↔ a = b := by
  obtain ⟨f, c, v⟩ := a
  obtain ⟨f', c', v'⟩ := b
  simp [differ, and_assoc]

theorem legal_iff (p : Params) : Legal p ↔ refused p = false := by
  constructor
  · rintro ⟨h1, h2, h3, h4, h5, h6, h7⟩
    have ht : transparentFormat = transparent := rfl
    rw [ht] at h4 h5 h6 h7
    simp only [refused, differ_false.mpr h1, differ_false.mpr h2, Bool.false_eq_true, if_false]
    have b3 : (p.inBandwidth != p.outBandwidth && p.inBandwidth != 0 && p.outBandwidth != 0) = false := by
      rcases h3 with h | ⟨h, -⟩ | ⟨-, h⟩ <;> simp [h]
    have b4 : ((p.txCoding.format == transparent) != (p.inCoding.format == transparent)) = false := by
      rw [bne_eq_false_iff_eq, Bool.eq_iff_iff, beq_iff_eq, beq_iff_eq]
      exact h4
    have b6 : ((p.rxCoding.format == transparent) != (p.outCoding.format == transparent)) = false := by
      rw [bne_eq_false_iff_eq, Bool.eq_iff_iff, beq_iff_eq, beq_iff_eq]
      exact h6
    have b5 : (p.txCoding.format == transparent && p.inCoding.format == transparent && p.txBandwidth != p.inBandwidth) = false := by
      by_cases h : p.txCoding.format = transparent
      · simp [h5 h]
      · simp [h]
    have b7 : (p.rxCoding.format == transparent && p.outCoding.format == transparent && p.rxBandwidth != p.outBandwidth) = false := by
      by_cases h : p.rxCoding.format = transparent
      · simp [h7 h]
      · simp [h]
    simp only [b3, b4, b5, b6, b7, Bool.false_eq_true, if_false]
  · intro h
    simp only [refused] at h
    have key : ∀ (b : Bool) (x : Bool), (if b = true then true else x) = false → b = false ∧ x = false := by decide
    obtain ⟨h1, h⟩ := key _ _ h
    obtain ⟨h3, h⟩ := key _ _ h
    obtain ⟨h2, h⟩ := key _ _ h
    obtain ⟨h5, h⟩ := key _ _ h
    obtain ⟨h4, h⟩ := key _ _ h
    obtain ⟨h7, h6⟩ := key _ _ h
    have e4 : p.txCoding.format = transparent ↔ p.inCoding.format = transparent := by
      simp only [bne_eq_false_iff_eq] at h4
      rw [← beq_iff_eq, h4, beq_iff_eq]
    have e6 : p.rxCoding.format = transparent ↔ p.outCoding.format = transparent := by
      simp only [bne_eq_false_iff_eq] at h6
      rw [← beq_iff_eq, h6, beq_iff_eq]
    refine ⟨differ_false.mp h1, differ_false.mp h2, ?_, e4, ?_, e6, ?_⟩
    · by_cases a : p.inBandwidth = p.outBandwidth
      · exact .inl a
      · by_cases b : p.inBandwidth = 0
        · exact .inr (.inl ⟨b, fun c => a (b.trans c.symm)⟩)
        · by_cases c : p.outBandwidth = 0
          · exact .inr (.inr ⟨b, c⟩)
          · simp [a, b, c] at h3
    · intro ht
      have ht : p.txCoding.format = transparent := ht
      simpa [ht, e4.mp ht] using h5
    · intro ht
      have ht : p.rxCoding.format = transparent := ht
      simpa [ht, e6.mp ht] using h7

/-- A history without the commands of this component that does the same. -/
theorem flatten (xs : List (Nat × VAct)) {n n' : VNet} {ea eb : List Ev} (h : vrun n xs = some (n', ea, eb))
    (hx : ∀ x ∈ xs, ∀ a w, x.2 ≠ .hostA (.base (.create a w)) ∧ x.2 ≠ .hostB (.base (.create a w)) ∨ a ≠ 0) :
    ∃ ys : List (Nat × NAct), ys.all (fun y => Br.named y.2) = true ∧ nrun n.net ys = some (n'.net, ea, eb) := by
  induction xs generalizing n ea eb with
  | nil =>
    cases h
    exact ⟨[], rfl, rfl⟩
  | cons x xs ih =>
    obtain ⟨now, x⟩ := x
    simp only [vrun] at h
    split at h
    · cases h
    · rename_i n1 ea1 eb1 h1
      simp only [Option.map_eq_some_iff] at h
      obtain ⟨⟨n2, ea2, eb2⟩, h2, h⟩ := h
      cases h
      obtain ⟨ys, hn, hr⟩ := ih h2 (fun y hy => hx y (List.mem_cons_of_mem _ hy))
      have one : ∀ y, Br.named y = true → nstep n.net now y = some (n1.net, ea1, eb1) →
          ∃ ys : List (Nat × NAct), ys.all (fun y => Br.named y.2) = true ∧ nrun n.net ys = some (n2.net, ea1 ++ ea2, eb1 ++ eb2) := by
        intro y hy hs
        refine ⟨(now, y) :: ys, ?_, ?_⟩
        · simp [hy, hn]
        · simp only [nrun, hs, hr, Option.map_some]
      have skip : n1.net = n.net → ea1 = [] → eb1 = [] →
          ∃ ys : List (Nat × NAct), ys.all (fun y => Br.named y.2) = true ∧ nrun n.net ys = some (n2.net, ea1 ++ ea2, eb1 ++ eb2) := by
        intro e e1 e2
        subst e1 e2
        exact ⟨ys, hn, by rw [← e]; exact hr⟩
      have hx := hx _ (List.mem_cons_self)
      cases x with
      | other y =>
        have hy : Br.named y = true := by
          cases y <;> first | rfl | (simp only [vstep] at h1; cases h1)
        refine one y hy ?_
        cases y <;> simp only [vstep, Option.map_eq_some_iff] at h1 <;> first
          | (obtain ⟨⟨r, r1, r2⟩, h1, h3⟩ := h1; cases h3; exact h1)
          | cases h1
      | hostA c =>
        simp only [vstep, Option.map_eq_some_iff] at h1
        obtain ⟨⟨r, r1, r2⟩, h1, h3⟩ := h1
        cases h3
        cases c with
        | base c =>
          refine one (.hostA c) ?_ h1
          cases c with
          | create a w =>
            rcases hx a w with ⟨h, -⟩ | h
            · exact absurd rfl h
            · simpa [Br.named] using h
          | _ => rfl
        | writeVoice v =>
          simp only [vcommand, putA] at h1
          cases h1
          exact skip (by simp) rfl rfl
        | setup k p =>
          simp only [vcommand] at h1
          split at h1
          · simp only [Br.refuse, putA] at h1
            cases h1
            exact skip (by simp) rfl rfl
          · exact one (.hostA _) rfl h1
        | accept k p =>
          simp only [vcommand] at h1
          split at h1
          · simp only [Br.refuse, putA] at h1
            cases h1
            exact skip (by simp) rfl rfl
          · exact one (.hostA _) rfl h1
      | hostB c =>
        simp only [vstep, Option.map_eq_some_iff] at h1
        obtain ⟨⟨r, r1, r2⟩, h1, h3⟩ := h1
        cases h3
        cases c with
        | base c =>
          refine one (.hostB c) ?_ h1
          cases c with
          | create a w =>
            rcases hx a w with ⟨-, h⟩ | h
            · exact absurd rfl h
            · simpa [Br.named] using h
          | _ => rfl
        | writeVoice v =>
          simp only [vcommand, putB] at h1
          cases h1
          exact skip (by simp) rfl rfl
        | setup k p =>
          simp only [vcommand] at h1
          split at h1
          · simp only [Br.refuse, putB] at h1
            cases h1
            exact skip (by simp) rfl rfl
          · exact one (.hostB _) rfl h1
        | accept k p =>
          simp only [vcommand] at h1
          split at h1
          · simp only [Br.refuse, putB] at h1
            cases h1
            exact skip (by simp) rfl rfl
          · exact one (.hostB _) rfl h1

end Verif.Voice
