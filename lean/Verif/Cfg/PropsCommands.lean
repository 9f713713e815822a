import Verif.Cfg.Lemmas
/-! # C89: commands that contradict the features are reported -/
namespace Verif.Cfg
open Verif.Hci (Preset)

/-- C89. For every controller, a command with the requirements `b` (BR/EDR) and `l` (LE) is reported exactly if its
support contradicts them. Left out: the requirements of the list `wrong`. -/
theorem C89_reported_partial (p : Props) {i : Nat} {b l : Name} (ht : p.br = true ∨ p.le = true)
    (hb : lookup tableBr i = some b) (hl : lookup tableLe i = some l) (wb : b ∉ wrong) (wl : l ∉ wrong) :
    Message.command i ∈ p.log ↔ agrees p.view (rule b) (rule l) i = false := by
  obtain ⟨⟨r, hr, he⟩, hn⟩ := row_of hb hl
  have key : ∀ r ∈ rows, r.1 = i → checkRequirement p.br (p.need r.2.1) p.le (p.need r.2.2) (p.command r.1) =
      agrees p.view (rule b) (rule l) i := by
    intro r hr he
    obtain ⟨h1, h2⟩ := hn r hr he
    rw [need_rule p r.2.1 (h1 ▸ wb), need_rule p r.2.2 (h2 ▸ wl), command_view, h1, h2, he]
    exact check_asks p.view _ _ i ht
  rw [mem_log]
  constructor
  · rintro ⟨r, hr, he, hc⟩
    rw [← key r hr he]
    exact hc
  · intro h
    exact ⟨r, hr, he, (key r hr he).trans h⟩

/-- Of the 312 commands of the table, 292 have requirements that are coded as they are written. -/
example : (tableBr.flatMap (·.2)).length = 312 ∧ ((tableBr.flatMap (·.2)).filter (fun i =>
    decide (∀ t ∈ [tableBr, tableLe], ∀ n ∈ lookup t i, n ∉ wrong))).length = 292 := by
  decide +kernel

/-- The preset with its own features: Remote Name Request Cancel is mandatory and not supported. -/
example : Message.command 24 ∈ (base .default).log ∧ lookup tableBr 24 = some (.c 106) ∧ lookup tableLe 24 = some .x ∧
    agrees (base .default).view (rule (.c 106)) (rule .x) 24 = false := by decide +kernel

/-- A controller with both transports or one, with all the commands or none. -/
def plainProps (br le : Bool) (all : Bool) (page0 page2 leFeatures : Nat) : Props :=
  { lmpVersion := 12, br := br, le := le, commands := List.replicate 64 (if all then 255 else 0), page0 := page0, page1 := 0, page2 := page2, leFeatures := leFeatures, roles := 3 }

/-- For each requirement not coded as it is written, a command with it and a controller. -/
def wrongCases : List (Name × Nat × Props) := [
  (.c 10, 347, plainProps true true false 0 0 0xffffffffffffffff),
  (.c 12, 360, plainProps true true true 0 0 0),
  (.c 13, 357, plainProps true true true 0 0 0),
  (.c 37, 414, plainProps true true false 0 0 0xffffffffffffffff),
  (.c 50, 442, plainProps true true false 0 0 0xffffffffffffffff),
  (.c 123, 160, plainProps true true false 0 0 0),
  (.c 133, 16, plainProps true true false 1 0 0),
  (.c 135, 104, plainProps true true false 0xffffffffffffffff 0 0),
  (.c 136, 304, plainProps true true false 0 0xffffffffffffffff 0),
  (.c 148, 60, plainProps true true false 0 0 0),
  (.c 152, 102, plainProps true false true 0 0 0),
  (.c 153, 246, plainProps true false true 0 0 0),
  (.c 154, 131, plainProps true true true 0 0 0)]

/-- Whether a command is reported of a controller if and only if it should be. -/
def wellReported (p : Props) (i : Nat) : Bool := match lookup tableBr i, lookup tableLe i with
  | some b, some l => decide (Message.command i ∈ p.log) == !agrees p.view (rule b) (rule l) i
  | _, _ => true

set_option maxRecDepth 100000 in
/-- C89 does not hold of the requirements of the list `wrong`: each is the requirement of a command that is reported
of a controller that does as the requirement says, or not reported of one that does not. -/
theorem C89_requirements_violated : ∀ n ∈ wrong, ∃ (p : Props) (i : Nat) (b l : Name), (p.br = true ∨ p.le = true) ∧
    lookup tableBr i = some b ∧ lookup tableLe i = some l ∧ (b = n ∨ l = n) ∧
    ¬(Message.command i ∈ p.log ↔ agrees p.view (rule b) (rule l) i = false) := by
  have h1 : ∀ n ∈ wrong, ∃ w ∈ wrongCases, w.1 = n := by decide +kernel
  have h2 : ∀ w ∈ wrongCases, (w.2.2.br = true ∨ w.2.2.le = true) ∧ (lookup tableBr w.2.1 = some w.1 ∨ lookup tableLe w.2.1 = some w.1) ∧
      (lookup tableBr w.2.1).isSome = true ∧ (lookup tableLe w.2.1).isSome = true ∧ wellReported w.2.2 w.2.1 = false := by
    decide +kernel
  intro n hn
  obtain ⟨⟨m, i, p⟩, hw, rfl⟩ := h1 n hn
  obtain ⟨ht, hm, hb, hl, hr⟩ := h2 _ hw
  obtain ⟨b, hb⟩ := Option.isSome_iff_exists.mp hb
  obtain ⟨l, hl⟩ := Option.isSome_iff_exists.mp hl
  refine ⟨p, i, b, l, ht, hb, hl, ?_, ?_⟩
  · simpa [hb, hl] using hm
  · simp only [wellReported, hb, hl] at hr
    intro h
    by_cases hc : Message.command i ∈ p.log
    · simp [hc, h.mp hc] at hr
    · have : agrees p.view (rule b) (rule l) i = true := by
        cases ha : agrees p.view (rule b) (rule l) i with
        | true => rfl
        | false => exact absurd (h.mpr ha) hc
      simp [hc, this] at hr

/-- C89 does not hold of the warning that the supported commands are not consistent: it is printed of no controller,
although commands may contradict the features. -/
theorem C89_warning_violated : (∀ p : Props, Message.commands ∉ p.log) ∧
    ∃ (p : Props) (i : Nat), lookup tableBr i = some .m ∧ lookup tableLe i = some .m ∧
      agrees p.view (rule .m) (rule .m) i = false := by
  refine ⟨fun p => ?_, plainProps true true false 0 0 0, 56, by decide +kernel, by decide +kernel, by decide +kernel⟩
  simp only [Props.log, Props.checkCommands]
  cases p.checkFeatures <;> simp

end Verif.Cfg
