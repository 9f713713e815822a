import Verif.Pdl.Lemmas
/-!
# Lemmas about what is read
-/
namespace Verif.Pdl

theorem takeBits_some {n : Nat} {bs a r : List Bool} (h : takeBits n bs = some (a, r)) : a.length = n ∧ a ++ r = bs := by
  simp only [takeBits] at h
  split at h
  · cases h
  · cases h; simp; omega

theorem repeatDec_some {α : Type} (d : List Bool → Option (α × List Bool)) (P : α → Prop) (g : α → Nat)
    (hd : ∀ bs x r, d bs = some (x, r) → P x ∧ bs.length = g x + r.length) :
    ∀ n bs xs r, repeatDec d n bs = some (xs, r) → xs.length = n ∧ (∀ x ∈ xs, P x) ∧ bs.length = (xs.map g).sum + r.length := by
  intro n
  induction n with
  | zero => intro bs xs r h; cases h; simp
  | succ n ih =>
    intro bs xs r h
    simp only [repeatDec] at h
    split at h
    · cases h
    · rename_i x r1 h1
      split at h
      · cases h
      · rename_i ys r2 h2
        cases h
        obtain ⟨a, b, c⟩ := ih _ _ _ h2
        obtain ⟨e, f⟩ := hd _ _ _ h1
        refine ⟨by simp [a], ?_, ?_⟩
        · intro y hy
          rcases List.mem_cons.mp hy with rfl | hy
          · exact e
          · exact b y hy
        · simp only [List.map_cons, List.sum_cons]; omega

theorem allDec_some {α : Type} (d : List Bool → Option (α × List Bool)) (P : α → Prop) (g : α → Nat)
    (hd : ∀ bs x r, d bs = some (x, r) → P x ∧ bs.length = g x + r.length) :
    ∀ n bs xs, allDec d n bs = some xs → (∀ x ∈ xs, P x) ∧ bs.length = (xs.map g).sum := by
  intro n
  induction n with
  | zero => intro bs xs h; cases bs <;> cases h; simp
  | succ n ih =>
    intro bs xs h
    cases bs with
    | nil => cases h; simp
    | cons b bs =>
      simp only [allDec] at h
      split at h
      · cases h
      · rename_i x r1 h1
        split at h
        · cases h
        · rename_i ys h2
          cases h
          obtain ⟨b1, c⟩ := ih _ _ h2
          obtain ⟨e, f⟩ := hd _ _ _ h1
          refine ⟨?_, ?_⟩
          · intro y hy
            rcases List.mem_cons.mp hy with rfl | hy
            · exact e
            · exact b1 y hy
          · simp only [List.map_cons, List.sum_cons]; omega

theorem arrayDec_some {α : Type} (d : List Bool → Option (α × List Bool)) (P : α → Prop) (g : α → Nat)
    (hd : ∀ bs x r, d bs = some (x, r) → P x ∧ bs.length = g x + r.length) (env : Nat → Nat) (b : Bound)
    (bs : List Bool) (xs : List α) (r : List Bool) (h : arrayDec d env b bs = some (xs, r)) :
    (∀ x ∈ xs, P x) ∧ bs.length = (xs.map g).sum + r.length ∧ (∀ m, b = .const m → xs.length = m) ∧
      (∀ i, b = .count i → xs.length = env i) ∧ (∀ i, b = .size i → (xs.map g).sum / 8 = env i) := by
  cases b with
  | const m =>
    obtain ⟨a, b, c⟩ := repeatDec_some d P g hd _ _ _ _ h
    exact ⟨b, c, by intro k hk; cases hk; exact a, (by intro i hi; cases hi), (by intro i hi; cases hi)⟩
  | count i =>
    obtain ⟨a, b, c⟩ := repeatDec_some d P g hd _ _ _ _ h
    exact ⟨b, c, (by intro k hk; cases hk), by intro i hi; cases hi; exact a, (by intro i hi; cases hi)⟩
  | size i =>
    simp only [arrayDec] at h
    split at h
    · cases h
    · rename_i a r1 h1
      split at h
      · cases h
      · rename_i ys h2
        cases h
        obtain ⟨h3, h4⟩ := allDec_some d P g hd _ _ _ h2
        obtain ⟨h5, h6⟩ := takeBits_some h1
        refine ⟨h3, ?_, (by intro k hk; cases hk), (by intro i hi; cases hi), ?_⟩
        · rw [← h6]; simp; omega
        · intro j hj; cases hj; omega
  | rest =>
    simp only [arrayDec] at h
    split at h
    · cases h
    · rename_i ys h2
      cases h
      obtain ⟨h3, h4⟩ := allDec_some d P g hd _ _ _ h2
      exact ⟨h3, by simpa using h4, (by intro k hk; cases hk), (by intro i hi; cases hi), (by intro i hi; cases hi)⟩

theorem paddedDec_some {α : Type} (d : List Bool → Option (α × List Bool)) (P : α → Prop) (g : α → Nat)
    (hd : ∀ bs x r, d bs = some (x, r) → P x ∧ bs.length = g x + r.length) (env : Nat → Nat) (b : Bound) (pad : Nat)
    (bs : List Bool) (xs : List α) (r : List Bool) (h : paddedDec d env b pad bs = some (xs, r)) :
    (∀ x ∈ xs, P x) ∧ bs.length = max (xs.map g).sum (8 * pad) + r.length ∧ (∀ m, b = .const m → xs.length = m) ∧
      (∀ i, b = .count i → xs.length = env i) ∧ (∀ i, b = .size i → (xs.map g).sum / 8 = env i) ∧
      (pad = 0 ∨ (xs.map g).sum ≤ 8 * pad) := by
  simp only [paddedDec] at h
  split at h
  · rename_i h0
    subst h0
    obtain ⟨a1, a2, a3, a4, a5⟩ := arrayDec_some d P g hd _ _ _ _ _ h
    exact ⟨a1, by simpa using a2, a3, a4, a5, .inl rfl⟩
  · split at h
    · cases h
    · rename_i a r1 h1
      split at h
      · cases h
      · rename_i ys r2 h2
        cases h
        obtain ⟨a1, a2, a3, a4, a5⟩ := arrayDec_some d P g hd _ _ _ _ _ h2
        obtain ⟨h5, h6⟩ := takeBits_some h1
        refine ⟨a1, ?_, a3, a4, a5, .inr (by omega)⟩
        rw [← h6]; simp; omega

theorem left_cases (b : Bound) (s : List Nat) (i : Nat) (h : i ∈ s) : b = .count i ∨ b = .size i ∨ i ∈ b.left s := by
  cases b with
  | const m => exact .inr (.inr h)
  | rest => exact .inr (.inr h)
  | count j =>
    by_cases hj : i = j
    · subst hj; exact .inl rfl
    · exact .inr (.inr (by simp [Bound.left, h, hj]))
  | size j =>
    by_cases hj : i = j
    · subst hj; exact .inr (.inl rfl)
    · exact .inr (.inr (by simp [Bound.left, h, hj]))

/-- What is read fits. -/
theorem dec_some (f : Fmt) : ∀ s o env p bs v q r, wf s o f = true → dec f env p bs = some (v, q, r) →
    fits f v q.length = true ∧ bs.length = width f v q.length + r.length ∧
    (∀ i ∈ s, announced f i v q.length = env i) ∧ (room f = false → q = p) := by
  induction f with
  | done =>
    intro s o env p bs v q r hw h
    simp [wf] at hw
    cases h
    rw [hw.2]
    exact ⟨rfl, by simp [width], by simp, fun _ => rfl⟩
  | uint w k ih =>
    rintro s o env p bs ⟨x, v⟩ q r hw h
    simp only [dec] at h
    split at h
    · cases h
    · rename_i a r1 h1
      split at h
      · cases h
      · rename_i v' q' r' h2
        cases h
        obtain ⟨h3, h4⟩ := takeBits_some h1
        obtain ⟨i1, i2, i3, i4⟩ := ih s (o + w) env p _ _ _ _ (by simpa [wf] using hw) h2
        refine ⟨?_, ?_, i3, i4⟩
        · have := num_lt a
          rw [h3] at this
          simp [fits, i1, this]
        · rw [← h4]; simp only [width, List.length_append]; omega
  | fixed w c k ih =>
    intro s o env p bs (v : k.T) q r hw h
    simp only [wf, Bool.and_eq_true] at hw
    simp only [dec] at h
    split at h
    · cases h
    · rename_i a r1 h1
      have h' : (if num a = c then dec k env p r1 else none) = some (v, q, r) := h
      split at h'
      · obtain ⟨h3, h4⟩ := takeBits_some h1
        obtain ⟨i1, i2, i3, i4⟩ := ih s (o + w) env p _ _ _ _ hw.2 h'
        refine ⟨i1, ?_, i3, i4⟩
        rw [← h4]; simp only [width, List.length_append]; omega
      · cases h'
  | reserved w k ih =>
    intro s o env p bs (v : k.T) q r hw h
    simp only [dec] at h
    split at h
    · cases h
    · rename_i a r1 h1
      obtain ⟨h3, h4⟩ := takeBits_some h1
      obtain ⟨i1, i2, i3, i4⟩ := ih s (o + w) env p _ _ _ _ (by simpa [wf] using hw) h
      refine ⟨i1, ?_, i3, i4⟩
      rw [← h4]; simp only [width, List.length_append]; omega
  | len i w k ih =>
    intro s o env p bs (v : k.T) q r hw h
    simp only [wf, Bool.and_eq_true, Bool.not_eq_true', List.contains_eq_mem, decide_eq_false_iff_not] at hw
    simp only [dec] at h
    split at h
    · cases h
    · rename_i a r1 h1
      obtain ⟨h3, h4⟩ := takeBits_some h1
      obtain ⟨i1, i2, i3, i4⟩ := ih (i :: s) (o + w) _ p _ _ _ _ hw.2 h
      have h5 := i3 i (List.mem_cons_self)
      simp only [if_true] at h5
      refine ⟨?_, ?_, ?_, i4⟩
      · have := num_lt a
        rw [h3, ← h5] at this
        simp only [fits, i1, Bool.and_true, decide_eq_true_eq]; exact this
      · rw [← h4]; simp only [width, List.length_append]; omega
      · intro j hj
        have h6 := i3 j (List.mem_cons_of_mem _ hj)
        have h7 : j ≠ i := fun e => hw.1 (e ▸ hj)
        simp only [if_neg h7] at h6
        exact h6
  | array e b pad k ihe ih =>
    rintro s o env p bs ⟨xs, v⟩ q r hw h
    simp only [wf, Bool.and_eq_true, beq_iff_eq, decide_eq_true_eq, Bool.or_eq_true, bne_iff_ne, Bool.not_eq_true',
      ne_eq] at hw
    obtain ⟨⟨⟨⟨⟨⟨⟨ho, hwe⟩, hee⟩, hre⟩, hme⟩, hb⟩, hrest⟩, hwk⟩ := hw
    simp only [dec] at h
    split at h
    · cases h
    · rename_i ys r1 h1
      split at h
      · cases h
      · rename_i v' q' r' h2
        cases h
        obtain ⟨i1, i2, i3, i4⟩ := ih _ 0 env p _ _ _ _ hwk h2
        obtain ⟨a1, a2, a3, a4, a5, a6⟩ := paddedDec_some _ (fun x => fits e x 0 = true) (fun x => width e x 0)
          (by
            intro bs' x r2 hx
            cases hde : dec e (fun _ => 0) [] bs' with
            | none => rw [hde] at hx; cases hx
            | some t =>
              obtain ⟨x', q2, r3⟩ := t
              rw [hde] at hx
              cases hx
              obtain ⟨j1, j2, _, j4⟩ := ihe [] 0 _ _ _ _ _ _ hwe hde
              have := j4 hre
              subst this
              exact ⟨j1, j2⟩) _ _ _ _ _ _ h1
        refine ⟨?_, ?_, ?_, i4⟩
        · simp only [fits, Bool.and_eq_true, List.all_eq_true, Bool.or_eq_true, beq_iff_eq, decide_eq_true_eq]
          refine ⟨⟨⟨a1, ?_⟩, a6⟩, i1⟩
          cases b with
          | const m => simpa using a3 m rfl
          | _ => rfl
        · rw [a2]; simp only [width]; omega
        · intro i hi
          rcases left_cases b s i hi with hc | hc | hc
          · have := a4 i hc
            simp [announced, hc, this]
          · have := a5 i hc
            simp [announced, hc, this]
          · obtain ⟨_, hb1, hb2⟩ := announced_left b s i hc
            simp [announced, hb1, hb2, i3 i hc]
  | group u k ihs ih =>
    rintro s o env p bs ⟨x, v⟩ q r hw h
    simp only [wf, Bool.and_eq_true, beq_iff_eq, Bool.not_eq_true'] at hw
    obtain ⟨⟨⟨⟨ho, hwu⟩, heu⟩, hru⟩, hwk⟩ := hw
    simp only [dec] at h
    split at h
    · cases h
    · rename_i u' q1 r1 h1
      split at h
      · cases h
      · rename_i v' q' r' h2
        cases h
        obtain ⟨i1, i2, i3, i4⟩ := ih _ 0 env p _ _ _ _ hwk h2
        obtain ⟨j1, j2, _, j4⟩ := ihs [] 0 _ _ _ _ _ _ hwu h1
        have := j4 hru
        subst this
        refine ⟨?_, ?_, i3, i4⟩
        · simp only [fits, Bool.and_eq_true]; exact ⟨j1, i1⟩
        · rw [j2]; simp only [width, List.length_nil]; omega
  | payload b k ih =>
    intro s o env p bs (v : k.T) q r hw h
    simp only [wf, Bool.and_eq_true, beq_iff_eq, Bool.not_eq_true'] at hw
    obtain ⟨⟨⟨ho, hrk⟩, hwk⟩, hb⟩ := hw
    simp only [dec] at h
    split at h
    · cases h
    · rename_i a r1 h1
      obtain ⟨i1, i2, i3, i4⟩ := ih _ 0 env a _ _ _ _ hwk h
      have := i4 hrk
      subst this
      refine ⟨i1, ?_, ?_, by simp [room]⟩
      · cases b with
        | const n => simp at hb
        | count n => simp at hb
        | size i =>
          obtain ⟨h3, h4⟩ := takeBits_some h1
          rw [← h4]; simp only [width, List.length_append]; omega
        | rest =>
          simp only [payloadDec] at h1
          cases h1
          simp only [width]; simp at i2; omega
      · intro i hi
        rcases left_cases b s i hi with hc | hc | hc
        · subst hc; simp at hb
        · subst hc
          obtain ⟨h3, h4⟩ := takeBits_some h1
          simp only [announced, if_true]; omega
        · obtain ⟨_, hb1, hb2⟩ := announced_left b s i hc
          simp [announced, hb2, i3 i hc]

theorem repeatDec_bits {α : Type} (d : List Bool → Option (α × List Bool)) (e : α → List Bool)
    (hd : ∀ bs x r, d bs = some (x, r) → e x ++ r = bs) :
    ∀ n bs xs r, repeatDec d n bs = some (xs, r) → xs.flatMap e ++ r = bs := by
  intro n
  induction n with
  | zero => intro bs xs r h; cases h; simp
  | succ n ih =>
    intro bs xs r h
    simp only [repeatDec] at h
    split at h
    · cases h
    · rename_i x r1 h1
      split at h
      · cases h
      · rename_i ys r2 h2
        cases h
        rw [List.flatMap_cons, List.append_assoc, ih _ _ _ h2, hd _ _ _ h1]

theorem allDec_bits {α : Type} (d : List Bool → Option (α × List Bool)) (e : α → List Bool)
    (hd : ∀ bs x r, d bs = some (x, r) → e x ++ r = bs) :
    ∀ n bs xs, allDec d n bs = some xs → xs.flatMap e = bs := by
  intro n
  induction n with
  | zero => intro bs xs h; cases bs <;> cases h; rfl
  | succ n ih =>
    intro bs xs h
    cases bs with
    | nil => cases h; rfl
    | cons b bs =>
      simp only [allDec] at h
      split at h
      · cases h
      · rename_i x r1 h1
        split at h
        · cases h
        · rename_i ys h2
          cases h
          rw [List.flatMap_cons, ih _ _ h2, hd _ _ _ h1]

theorem arrayDec_bits {α : Type} (d : List Bool → Option (α × List Bool)) (e : α → List Bool)
    (hd : ∀ bs x r, d bs = some (x, r) → e x ++ r = bs) (env : Nat → Nat) (b : Bound) (bs : List Bool) (xs : List α)
    (r : List Bool) (h : arrayDec d env b bs = some (xs, r)) : xs.flatMap e ++ r = bs := by
  cases b with
  | const m => exact repeatDec_bits d e hd _ _ _ _ h
  | count i => exact repeatDec_bits d e hd _ _ _ _ h
  | size i =>
    simp only [arrayDec] at h
    split at h
    · cases h
    · rename_i a r1 h1
      split at h
      · cases h
      · rename_i ys h2
        cases h
        rw [allDec_bits d e hd _ _ _ h2]
        exact (takeBits_some h1).2
  | rest =>
    simp only [arrayDec] at h
    split at h
    · cases h
    · rename_i ys h2
      cases h
      rw [allDec_bits d e hd _ _ _ h2, List.append_nil]

theorem bits_of_take {w : Nat} {bs a r : List Bool} (h : takeBits w bs = some (a, r)) : bits w (num a) ++ r = bs := by
  obtain ⟨h1, h2⟩ := takeBits_some h
  rw [← h1, bits_num, h2]

/-- Without reserved bits and padding, the bits that were read are those that would be written. -/
theorem dec_bits (f : Fmt) : ∀ s o env p bs v q r, wf s o f = true → plain f = true → dec f env p bs = some (v, q, r) →
    enc f v q ++ r = bs := by
  induction f with
  | done => intro s o env p bs v q r _ _ h; cases h; rfl
  | uint w k ih =>
    rintro s o env p bs ⟨x, v⟩ q r hw hp h
    simp only [dec] at h
    split at h
    · cases h
    · rename_i a r1 h1
      split at h
      · cases h
      · rename_i v' q' r' h2
        cases h
        simp only [enc, List.append_assoc]
        rw [ih s (o + w) env p _ _ _ _ (by simpa [wf] using hw) hp h2, bits_of_take h1]
  | fixed w c k ih =>
    intro s o env p bs (v : k.T) q r hw hp h
    simp only [wf, Bool.and_eq_true] at hw
    simp only [dec] at h
    split at h
    · cases h
    · rename_i a r1 h1
      have h' : (if num a = c then dec k env p r1 else none) = some (v, q, r) := h
      split at h'
      · rename_i hc
        simp only [enc, List.append_assoc]
        rw [ih s (o + w) env p _ _ _ _ hw.2 hp h', ← hc, bits_of_take h1]
      · cases h'
  | reserved w k ih => intro s o env p bs (v : k.T) q r hw hp h; cases hp
  | len i w k ih =>
    intro s o env p bs (v : k.T) q r hw hp h
    simp only [wf, Bool.and_eq_true] at hw
    simp only [dec] at h
    split at h
    · cases h
    · rename_i a r1 h1
      have h5 := (dec_some k (i :: s) (o + w) _ p _ _ _ _ hw.2 h).2.2.1 i (List.mem_cons_self)
      simp only [if_true] at h5
      simp only [enc, List.append_assoc, lenOf_eq]
      rw [ih (i :: s) (o + w) _ p _ _ _ _ hw.2 hp h, h5, bits_of_take h1]
  | array e b pad k ihe ih =>
    rintro s o env p bs ⟨xs, v⟩ q r hw hp h
    simp only [wf, Bool.and_eq_true, beq_iff_eq, decide_eq_true_eq, Bool.or_eq_true, bne_iff_ne, Bool.not_eq_true',
      ne_eq] at hw
    obtain ⟨⟨⟨⟨⟨⟨⟨ho, hwe⟩, hee⟩, hre⟩, hme⟩, hb⟩, hrest⟩, hwk⟩ := hw
    simp only [plain, Bool.and_eq_true, beq_iff_eq] at hp
    obtain ⟨⟨hpe, hp0⟩, hpk⟩ := hp
    subst hp0
    simp only [dec] at h
    split at h
    · cases h
    · rename_i ys r1 h1
      split at h
      · cases h
      · rename_i v' q' r' h2
        cases h
        simp only [enc, List.append_assoc, padTo, Nat.mul_zero, Nat.zero_sub, List.replicate_zero, List.nil_append]
        rw [ih _ 0 env p _ _ _ _ hwk hpk h2]
        refine arrayDec_bits _ (fun x => enc e x []) ?_ env b bs xs r1 h1
        intro bs' x r2 hx
        cases hde : dec e (fun _ => 0) [] bs' with
        | none => rw [hde] at hx; cases hx
        | some t =>
          obtain ⟨x', q2, r3⟩ := t
          rw [hde] at hx
          cases hx
          have h3 := (dec_some e [] 0 _ _ _ _ _ _ hwe hde).2.2.2 hre
          subst h3
          exact ihe [] 0 _ _ _ _ _ _ hwe hpe hde
  | group u k ihs ih =>
    rintro s o env p bs ⟨x, v⟩ q r hw hp h
    simp only [wf, Bool.and_eq_true, beq_iff_eq, Bool.not_eq_true'] at hw
    obtain ⟨⟨⟨⟨ho, hwu⟩, heu⟩, hru⟩, hwk⟩ := hw
    simp only [plain, Bool.and_eq_true] at hp
    simp only [dec] at h
    split at h
    · cases h
    · rename_i u' q1 r1 h1
      split at h
      · cases h
      · rename_i v' q' r' h2
        cases h
        have h3 := (dec_some u [] 0 _ _ _ _ _ _ hwu h1).2.2.2 hru
        subst h3
        simp only [enc, List.append_assoc]
        rw [ih _ 0 env p _ _ _ _ hwk hp.2 h2, ihs [] 0 _ _ _ _ _ _ hwu hp.1 h1]
  | payload b k ih =>
    intro s o env p bs (v : k.T) q r hw hp h
    simp only [wf, Bool.and_eq_true, beq_iff_eq, Bool.not_eq_true'] at hw
    obtain ⟨⟨⟨ho, hrk⟩, hwk⟩, hb⟩ := hw
    simp only [dec] at h
    split at h
    · cases h
    · rename_i a r1 h1
      have h3 := (dec_some k _ 0 _ _ _ _ _ _ hwk h).2.2.2 hrk
      subst h3
      simp only [enc, List.append_assoc]
      rw [ih _ 0 env _ _ _ _ _ hwk hp h]
      cases b with
      | const n => simp at hb
      | count n => simp at hb
      | size i => exact (takeBits_some h1).2
      | rest => simp only [payloadDec] at h1; cases h1; simp

end Verif.Pdl
