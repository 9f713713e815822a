import Verif.Sub.Spec
/-! Helper lemmas about the timing of a connection. -/
namespace Verif.Sub

theorem ite_split {α : Type} {c : Prop} [Decidable c] {x y z : α} (h : (if c then x else y) = z) :
    (c ∧ x = z) ∨ (¬c ∧ y = z) := by
  by_cases hc : c
  · exact .inl ⟨hc, by rwa [if_pos hc] at h⟩
  · exact .inr ⟨hc, by rwa [if_neg hc] at h⟩

/-- Everything known about an accepted subrate request. -/
theorem subrateRequest_success {e : End} {a b c d t : Nat} {e' : End} {p : List Pdu} {v : List Ev}
    (h : subrateRequest e a b c d t = .ok .success e' p v) :
    InRange a b c d t ∧ b * (c + 1) ≤ 500 ∧ e.timing.interval * b * (c + 1) < t / 2 ∧ d < b ∧
      ((e.role = .central ∧ e' = { e with timing := ⟨e.timing.interval, b, d, c, t⟩, accept := ⟨a, b, c, d, t⟩ } ∧
          p = [.subrateInd .success b c d t] ∧ v = [.subrateChange .success b c d t]) ∨
        (e.role = .peripheral ∧ e' = e ∧ p = [.subrateReq a b c d t] ∧ v = [])) := by
  simp only [subrateRequest] at h
  rcases ite_split h with ⟨_, h⟩ | ⟨h1, h⟩; · cases h
  rcases ite_split h with ⟨_, h⟩ | ⟨h2, h⟩; · cases h
  rcases ite_split h with ⟨_, h⟩ | ⟨h3, h⟩; · cases h
  rcases ite_split h with ⟨_, h⟩ | ⟨h4, h⟩; · cases h
  rcases ite_split h with ⟨_, h⟩ | ⟨h5, h⟩; · cases h
  rcases ite_split h with ⟨_, h⟩ | ⟨h6, h⟩; · cases h
  rcases ite_split h with ⟨_, h⟩ | ⟨_, h⟩; · cases h
  rcases ite_split h with ⟨_, h⟩ | ⟨h8, h⟩; · cases h
  rcases ite_split h with ⟨_, h⟩ | ⟨_, h⟩; · cases h
  rcases ite_split h with ⟨_, h⟩ | ⟨h10, h⟩; · cases h
  rcases ite_split h with ⟨_, h⟩ | ⟨h11, h⟩; · cases h
  cases hr : e.role <;> simp only [hr] at h <;> cases h
  · refine ⟨by unfold InRange; omega, by omega, by omega, by omega, .inl ⟨rfl, ?_, rfl, rfl⟩⟩
    simp
  · refine ⟨by unfold InRange; omega, by omega, by omega, by omega, .inr ⟨rfl, rfl, rfl, rfl⟩⟩

theorem mul_bound {i b c : Nat} (h : b * (c + 1) ≤ 500) (hi : i < 65536) : i * b * (c + 1) ≤ 65535 * 500 := by
  rw [Nat.mul_assoc]
  exact Nat.mul_le_mul (by omega) h

/-- A subrate request never fails and if it does not succeed, nothing happens. -/
theorem subrateRequest_cases (e : End) (a b c d t : Nat) (hi : e.timing.interval < 65536) :
    (∃ s, subrateRequest e a b c d t = .ok s e [] [] ∧ s ≠ .success) ∨
      ∃ e' p v, subrateRequest e a b c d t = .ok .success e' p v := by
  generalize hres : subrateRequest e a b c d t = res
  simp only [subrateRequest] at hres
  rcases ite_split hres with ⟨_, h⟩ | ⟨h1, hres⟩; · exact .inl ⟨_, h.symm, nofun⟩
  rcases ite_split hres with ⟨_, h⟩ | ⟨h2, hres⟩; · exact .inl ⟨_, h.symm, nofun⟩
  rcases ite_split hres with ⟨_, h⟩ | ⟨h3, hres⟩; · exact .inl ⟨_, h.symm, nofun⟩
  rcases ite_split hres with ⟨_, h⟩ | ⟨h4, hres⟩; · exact .inl ⟨_, h.symm, nofun⟩
  rcases ite_split hres with ⟨_, h⟩ | ⟨h5, hres⟩; · exact .inl ⟨_, h.symm, nofun⟩
  rcases ite_split hres with ⟨_, h⟩ | ⟨h6, hres⟩; · exact .inl ⟨_, h.symm, nofun⟩
  rcases ite_split hres with ⟨h, _⟩ | ⟨_, hres⟩
  · exfalso
    have : b * (c + 1) ≤ 500 * 500 := Nat.mul_le_mul (by omega) (by omega)
    unfold intMax at h
    omega
  rcases ite_split hres with ⟨_, h⟩ | ⟨h8, hres⟩; · exact .inl ⟨_, h.symm, nofun⟩
  rcases ite_split hres with ⟨h, _⟩ | ⟨_, hres⟩
  · exfalso
    have := mul_bound (i := e.timing.interval) (b := b) (c := c) (by omega) hi
    unfold intMax at h
    omega
  rcases ite_split hres with ⟨_, h⟩ | ⟨h10, hres⟩; · exact .inl ⟨_, h.symm, nofun⟩
  rcases ite_split hres with ⟨_, h⟩ | ⟨h11, hres⟩; · exact .inl ⟨_, h.symm, nofun⟩
  cases hr : e.role <;> simp only [hr] at hres
  · exact .inr ⟨_, _, _, hres.symm⟩
  · exact .inr ⟨_, _, _, hres.symm⟩

/-- Everything known about an incoming subrate request at a central, when nothing overflows. -/
theorem incomingSubrateReq_cases {e : End} {a b c d t : Nat} (hr : e.role = .central)
    (ho : e.timing.interval * a * (c + 1) * 2 ≤ intMax) :
    incomingSubrateReq e a b c d t = .ok .success e [.subrateInd .invalidLlParameters 0 0 0 0] [] ∨
      ((e.accept.min ≤ b ∧ a ≤ e.accept.max ∧ c ≤ e.accept.latency ∧ t ≤ e.accept.timeout ∧
          t ≤ e.timing.interval * a * (c + 1) * 2) ∧
        ∃ f k, f = Nat.min b e.accept.max ∧ k = Nat.min (Nat.max d e.accept.cont) ((f + 65535) % 65536) ∧
          incomingSubrateReq e a b c d t = .ok .success { e with timing := ⟨e.timing.interval, f, k, c, t⟩ }
            [.subrateInd .success f c k t] [.subrateChange .success f c k t]) := by
  simp only [incomingSubrateReq]
  rw [if_neg (by simp [hr]), if_neg (by omega)]
  split
  · exact .inl rfl
  · rename_i h
    refine .inr ⟨by omega, _, _, rfl, rfl, ?_⟩
    have h1 : Nat.min c e.accept.latency = c := Nat.min_eq_left (by omega)
    have h2 : Nat.min t e.accept.timeout = t := Nat.min_eq_left (by omega)
    rw [h1, h2]

/-- The refusal of a reply to a parameter request changes nothing; otherwise the new timing is legal. -/
theorem paramReply_cases (e : End) (a b c t x y : Nat) :
    paramReply e a b c t x y = .ok .invalidParameters e [] [] ∨
      ((6 ≤ a ∧ a ≤ 3200 ∧ Legal ⟨a, 1, 0, c, t⟩) ∧
        paramReply e a b c t x y = .ok .success { e with timing := ⟨a, 1, 0, c, t⟩ }
          [.paramUpdate .success a c t] [.updateComplete .success a c t]) := by
  simp only [paramReply]
  split
  · exact .inl rfl
  split
  · exact .inl rfl
  · rename_i h _
    refine .inr ⟨⟨by omega, by omega, by simp, by simp, by simp, by simp; omega, ?_⟩, rfl⟩
    have h1 : a * (c + 1) ≤ (1 + c) * b := by rw [Nat.mul_comm, Nat.add_comm]; exact Nat.mul_le_mul_left _ (by omega)
    have h2 : 125 * a * 1 * (c + 1) = 125 * (a * (c + 1)) := by rw [Nat.mul_one, Nat.mul_assoc]
    simp only [h2]
    generalize a * (c + 1) = u at *
    generalize (1 + c) * b = w at *
    omega

end Verif.Sub
