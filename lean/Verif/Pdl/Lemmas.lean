import Verif.Pdl.Spec
/-!
# Lemmas about packets
-/
namespace Verif.Pdl

/-- Every element has at least one bit. -/
def minBits : Fmt → Nat
  | .done => 0
  | .uint w k => w + minBits k
  | .fixed w _ k => w + minBits k
  | .reserved w k => w + minBits k
  | .len _ w k => w + minBits k
  | .array _ _ pad k => 8 * pad + minBits k
  | .group s k => minBits s + minBits k
  | .payload _ k => minBits k

/-- The body has an array or payload that ends with the packet. -/
def endless : Fmt → Bool
  | .done => false
  | .uint _ k => endless k
  | .fixed _ _ k => endless k
  | .reserved _ k => endless k
  | .len _ _ k => endless k
  | .array _ b _ k => b == .rest || endless k
  | .group _ k => endless k
  | .payload b k => b == .rest || endless k

/-- The length field of an array has been read. -/
def Bound.known (known : List Nat) : Bound → Bool
  | .const _ => true
  | .count i => known.contains i
  | .size i => known.contains i
  | .rest => true

/-- The length fields that are left. -/
def Bound.left (known : List Nat) : Bound → List Nat
  | .const _ => known
  | .count i => known.filter (fun j => j != i)
  | .size i => known.filter (fun j => j != i)
  | .rest => known

/-- A body that can be read: fields start where the others end. `at` is the position modulo 8 bits. -/
def wf : (known : List Nat) → (at_ : Nat) → Fmt → Bool
  | s, o, .done => o % 8 == 0 && s.isEmpty
  | s, o, .uint w k => wf s (o + w) k
  | s, o, .fixed w c k => c < 2 ^ w && wf s (o + w) k
  | s, o, .reserved w k => wf s (o + w) k
  | s, o, .len i w k => !s.contains i && wf (i :: s) (o + w) k
  | s, o, .array e b pad k => o % 8 == 0 && wf [] 0 e && !endless e && !room e && 0 < minBits e && b.known s
    && (b != .rest || (k == .done && pad == 0)) && wf (b.left s) 0 k
  | s, o, .group u k => o % 8 == 0 && wf [] 0 u && !endless u && !room u && wf s 0 k
  | s, o, .payload b k => o % 8 == 0 && !room k && wf (b.left s) 0 k && (match b with
      | .size i => s.contains i
      | .rest => k == .done
      | _ => false)

theorem bits_length (w n : Nat) : (bits w n).length = w := by
  induction w generalizing n with
  | zero => rfl
  | succ w ih => simp [bits, ih]

theorem num_bits (w n : Nat) (h : n < 2 ^ w) : num (bits w n) = n := by
  induction w generalizing n with
  | zero => simp [bits, num] at *; omega
  | succ w ih =>
    simp only [bits, num]
    rw [ih (n / 2) (by rw [Nat.pow_succ] at h; omega)]
    rcases Nat.mod_two_eq_zero_or_one n with h2 | h2 <;> simp [h2] <;> omega

theorem num_lt (l : List Bool) : num l < 2 ^ l.length := by
  induction l with
  | nil => simp [num]
  | cons b l ih => simp only [num, List.length_cons, Nat.pow_succ]; cases b <;> simp <;> omega

theorem bits_num (l : List Bool) : bits l.length (num l) = l := by
  induction l with
  | nil => rfl
  | cons b l ih =>
    simp only [num, List.length_cons, bits]
    have h1 : (b.toNat + 2 * num l) / 2 = num l := by cases b <;> simp <;> omega
    have h2 : ((b.toNat + 2 * num l) % 2 == 1) = b := by cases b <;> simp <;> omega
    rw [h1, h2, ih]

theorem takeBits_append (a r : List Bool) (n : Nat) (h : a.length = n) : takeBits n (a ++ r) = some (a, r) := by
  subst h
  simp [takeBits]

theorem flatMap_length {α : Type} (f : α → List Bool) (g : α → Nat) (xs : List α) (h : ∀ x, (f x).length = g x) :
    (xs.flatMap f).length = (xs.map g).sum := by
  induction xs with
  | nil => rfl
  | cons x xs ih => simp [List.flatMap_cons, h, ih]

theorem padTo_length (n : Nat) (l : List Bool) : (padTo n l).length = max l.length (8 * n) := by
  simp [padTo]; omega

theorem enc_length (f : Fmt) : ∀ v pl, (enc f v pl).length = width f v pl.length := by
  induction f with
  | done => intro v pl; rfl
  | uint w k ih => rintro ⟨x, v⟩ pl; simp [enc, width, bits_length, ih]
  | fixed w c k ih => intro (v : k.T) pl; simp [enc, width, bits_length, ih]
  | reserved w k ih => intro (v : k.T) pl; simp [enc, width, bits_length, ih]
  | len i w k ih => intro (v : k.T) pl; simp [enc, width, bits_length, ih]
  | array e b pad k ihe ih =>
    rintro ⟨xs, v⟩ pl
    simp only [enc, width, List.length_append, padTo_length, ih]
    rw [flatMap_length _ (fun x => width e x 0) xs (fun x => by simpa using ihe x [])]
  | group s k ihs ih =>
    rintro ⟨u, v⟩ pl
    simp only [enc, width, List.length_append, ih, ihs]; rfl
  | payload b k ih => intro (v : k.T) pl; simp [enc, width, ih]

theorem lenOf_eq (f : Fmt) : ∀ i v pl, lenOf f i v pl = announced f i v pl.length := by
  induction f with
  | done => intro i v pl; rfl
  | uint w k ih => rintro i ⟨x, v⟩ pl; simp [lenOf, announced, ih]
  | fixed w c k ih => intro i (v : k.T) pl; simp [lenOf, announced, ih]
  | reserved w k ih => intro i (v : k.T) pl; simp [lenOf, announced, ih]
  | len i w k ih => intro i (v : k.T) pl; simp [lenOf, announced, ih]
  | array e b pad k ihe ih =>
    rintro i ⟨xs, v⟩ pl
    simp only [lenOf, announced, ih]
    rw [flatMap_length _ (fun x => width e x 0) xs (fun x => by simpa using enc_length e x [])]
  | group s k ihs ih => rintro i ⟨u, v⟩ pl; simp [lenOf, announced, ih]
  | payload b k ih => intro i (v : k.T) pl; simp [lenOf, announced, ih]

theorem width_min (f : Fmt) : ∀ v n, minBits f ≤ width f v n := by
  induction f with
  | done => intro v n; exact Nat.le_refl _
  | uint w k ih => rintro ⟨x, v⟩ n; have := ih v n; simp only [minBits, width]; omega
  | fixed w c k ih => intro (v : k.T) n; have := ih v n; simp only [minBits, width]; omega
  | reserved w k ih => intro (v : k.T) n; have := ih v n; simp only [minBits, width]; omega
  | len i w k ih => intro (v : k.T) n; have := ih v n; simp only [minBits, width]; omega
  | array e b pad k ihe ih => rintro ⟨xs, v⟩ n; have := ih v n; simp only [minBits, width]; omega
  | group s k ihs ih => rintro ⟨u, v⟩ n; have := ih v n; have := ihs u 0; simp only [minBits, width]; omega
  | payload b k ih => intro (v : k.T) n; have := ih v n; simp only [minBits, width]; omega

/-- Whole octets. -/
theorem width_aligned (f : Fmt) : ∀ s o v n, wf s o f = true → n % 8 = 0 → (o + width f v n) % 8 = 0 := by
  induction f with
  | done => intro s o v n h _; simp [wf] at h; simpa [width] using h.1
  | uint w k ih => rintro s o ⟨x, v⟩ n h hn; have := ih s (o + w) v n (by simpa [wf] using h) hn; simp only [width]; omega
  | fixed w c k ih =>
    intro s o (v : k.T) n h hn
    have := ih s (o + w) v n (by simp [wf] at h; exact h.2) hn; simp only [width]; omega
  | reserved w k ih => intro s o (v : k.T) n h hn; have := ih s (o + w) v n (by simpa [wf] using h) hn; simp only [width]; omega
  | len i w k ih =>
    intro s o (v : k.T) n h hn
    have := ih (i :: s) (o + w) v n (by simp [wf] at h; exact h.2) hn; simp only [width]; omega
  | array e b pad k ihe ih =>
    rintro s o ⟨xs, v⟩ n h hn
    simp only [wf, Bool.and_eq_true, beq_iff_eq] at h
    have h1 := ih _ 0 v n h.2 hn
    have h2 : (xs.map (fun x => width e x 0)).sum % 8 = 0 := by
      clear h1 ih
      induction xs with
      | nil => rfl
      | cons x xs ihx =>
        have := ihe [] 0 x 0 h.1.1.1.1.1.1.2 rfl
        simp only [List.map_cons, List.sum_cons]; omega
    simp only [width]
    have := h.1.1.1.1.1.1.1
    have h3 : max (xs.map (fun x => width e x 0)).sum (8 * pad) % 8 = 0 := by
      rcases Nat.le_total (xs.map (fun x => width e x 0)).sum (8 * pad) with h4 | h4
      · rw [Nat.max_eq_right h4]; omega
      · rw [Nat.max_eq_left h4]; exact h2
    omega
  | group u k ihs ih =>
    rintro s o ⟨x, v⟩ n h hn
    simp only [wf, Bool.and_eq_true, beq_iff_eq] at h
    have h1 := ih _ 0 v n h.2 hn
    have h2 := ihs [] 0 x 0 h.1.1.1.2 rfl
    have := h.1.1.1.1
    simp only [width]; omega
  | payload b k ih =>
    intro s o (v : k.T) n h hn
    simp only [wf, Bool.and_eq_true, beq_iff_eq] at h
    have h1 := ih _ 0 v n h.1.2 hn
    have := h.1.1.1
    simp only [width]; omega

/-- Elements that are read one by one. -/
theorem repeatDec_flatMap {α : Type} (d : List Bool → Option (α × List Bool)) (e : α → List Bool) (xs : List α)
    (h : ∀ x ∈ xs, ∀ r, d (e x ++ r) = some (x, r)) (r : List Bool) :
    repeatDec d xs.length (xs.flatMap e ++ r) = some (xs, r) := by
  induction xs with
  | nil => rfl
  | cons x xs ih =>
    simp only [List.flatMap_cons, List.length_cons, List.append_assoc, repeatDec, h x (List.mem_cons_self)]
    rw [ih (fun y hy => h y (List.mem_cons_of_mem _ hy))]

theorem allDec_flatMap {α : Type} (d : List Bool → Option (α × List Bool)) (e : α → List Bool) (xs : List α)
    (h : ∀ x ∈ xs, ∀ r, d (e x ++ r) = some (x, r)) (hp : ∀ x, 0 < (e x).length) (n : Nat) (hn : xs.length ≤ n) :
    allDec d n (xs.flatMap e) = some xs := by
  induction xs generalizing n with
  | nil => cases n <;> rfl
  | cons x xs ih =>
    cases n with
    | zero => simp at hn
    | succ n =>
      have h1 := ih (fun y hy => h y (List.mem_cons_of_mem _ hy)) n (by simpa using hn)
      have h2 := h x (List.mem_cons_self) (xs.flatMap e)
      have h3 := hp x
      rw [List.flatMap_cons]
      cases hl : e x ++ xs.flatMap e with
      | nil => rw [List.append_eq_nil_iff] at hl; rw [hl.1] at h3; simp at h3
      | cons b bs => rw [hl] at h2; simp only [allDec, h2, h1]

theorem le_flatMap_length {α : Type} (e : α → List Bool) (hp : ∀ x, 0 < (e x).length) (xs : List α) :
    xs.length ≤ (xs.flatMap e).length := by
  induction xs with
  | nil => simp
  | cons x xs ih => have := hp x; simp only [List.flatMap_cons, List.length_append, List.length_cons]; omega

/-- What a bound says about an array. -/
theorem arrayDec_flatMap {α : Type} (d : List Bool → Option (α × List Bool)) (e : α → List Bool) (xs : List α)
    (env : Nat → Nat) (b : Bound) (r : List Bool)
    (h : ∀ x ∈ xs, ∀ r, d (e x ++ r) = some (x, r)) (hp : ∀ x, 0 < (e x).length)
    (h8 : (xs.flatMap e).length % 8 = 0)
    (hconst : ∀ m, b = .const m → xs.length = m) (hcount : ∀ i, b = .count i → env i = xs.length)
    (hsize : ∀ i, b = .size i → env i = (xs.flatMap e).length / 8) (hrest : b = .rest → r = []) :
    arrayDec d env b (xs.flatMap e ++ r) = some (xs, r) := by
  cases b with
  | const m => simp only [arrayDec, ← hconst m rfl]; exact repeatDec_flatMap d e xs h r
  | count i => simp only [arrayDec, hcount i rfl]; exact repeatDec_flatMap d e xs h r
  | size i =>
    have h1 : (xs.flatMap e).length = 8 * env i := by rw [hsize i rfl]; omega
    simp only [arrayDec, takeBits_append _ r _ h1]
    rw [allDec_flatMap d e xs h hp _ (le_flatMap_length e hp xs)]
  | rest =>
    rw [hrest rfl]
    simp only [arrayDec, List.append_nil]
    rw [allDec_flatMap d e xs h hp _ (le_flatMap_length e hp xs)]

theorem paddedDec_padTo {α : Type} (d : List Bool → Option (α × List Bool)) (e : α → List Bool) (xs : List α)
    (env : Nat → Nat) (b : Bound) (pad : Nat) (r : List Bool)
    (h : ∀ x ∈ xs, ∀ r, d (e x ++ r) = some (x, r)) (hp : ∀ x, 0 < (e x).length)
    (h8 : (xs.flatMap e).length % 8 = 0) (hpad : pad = 0 ∨ (xs.flatMap e).length ≤ 8 * pad)
    (hconst : ∀ m, b = .const m → xs.length = m) (hcount : ∀ i, b = .count i → env i = xs.length)
    (hsize : ∀ i, b = .size i → env i = (xs.flatMap e).length / 8) (hrest : b = .rest → pad = 0 ∧ r = []) :
    paddedDec d env b pad (padTo pad (xs.flatMap e) ++ r) = some (xs, r) := by
  by_cases h0 : pad = 0
  · subst h0
    simp only [paddedDec, padTo, Nat.mul_zero, Nat.zero_sub, List.replicate_zero, List.append_nil, if_true]
    exact arrayDec_flatMap d e xs env b r h hp h8 hconst hcount hsize (fun hb => (hrest hb).2)
  · have h1 : (padTo pad (xs.flatMap e)).length = 8 * pad := by
      rw [padTo_length]; rcases hpad with h2 | h2
      · exact absurd h2 h0
      · omega
    simp only [paddedDec, if_neg h0, takeBits_append _ r _ h1]
    simp only [padTo]
    rw [arrayDec_flatMap d e xs env b _ h hp h8 hconst hcount hsize (fun hb => absurd (hrest hb).1 h0)]

theorem announced_left (b : Bound) (s : List Nat) (i : Nat) (h : i ∈ b.left s) :
    i ∈ s ∧ b ≠ .count i ∧ b ≠ .size i := by
  cases b <;> simp [Bound.left] at h ⊢ <;> first | exact h | (refine ⟨h.1, ?_⟩; intro h2; exact h.2 h2.symm)

/-- What was written is read. -/
theorem dec_enc (f : Fmt) : ∀ s o env p v pl r, wf s o f = true → fits f v pl.length = true → pl.length % 8 = 0 →
    (∀ i ∈ s, env i = announced f i v pl.length) → (endless f = true → r = []) →
    dec f env p (enc f v pl ++ r) = some (v, if room f then pl else p, r) := by
  induction f with
  | done => intro s o env p v pl r _ _ _ _ _; rfl
  | uint w k ih =>
    rintro s o env p ⟨x, v⟩ pl r hw hf h8 he hr
    simp only [fits, Bool.and_eq_true, decide_eq_true_eq] at hf
    simp only [enc, dec, List.append_assoc, takeBits_append _ _ _ (bits_length w x), num_bits w x hf.1]
    rw [ih s (o + w) env p v pl r (by simpa [wf] using hw) hf.2 h8 he hr]
    rfl
  | fixed w c k ih =>
    intro s o env p (v : k.T) pl r hw hf h8 he hr
    simp only [wf, Bool.and_eq_true, decide_eq_true_eq] at hw
    simp only [enc, dec, List.append_assoc, takeBits_append _ _ _ (bits_length w c), num_bits w c hw.1, if_true]
    rw [ih s (o + w) env p v pl r hw.2 hf h8 he hr]
    rfl
  | reserved w k ih =>
    intro s o env p (v : k.T) pl r hw hf h8 he hr
    simp only [enc, dec, List.append_assoc, takeBits_append _ _ _ (bits_length w 0)]
    rw [ih s (o + w) env p v pl r (by simpa [wf] using hw) hf h8 he hr]
    rfl
  | len i w k ih =>
    intro s o env p (v : k.T) pl r hw hf h8 he hr
    simp only [wf, Bool.and_eq_true] at hw
    simp only [fits, Bool.and_eq_true, decide_eq_true_eq] at hf
    simp only [enc, dec, List.append_assoc, takeBits_append _ _ _ (bits_length w _), lenOf_eq, num_bits w _ hf.1]
    rw [ih (i :: s) (o + w) _ p v pl r hw.2 hf.2 h8 ?_ hr]
    · rfl
    · intro j hj
      by_cases h : j = i
      · subst h; simp
      · simp only [if_neg h]
        exact he j (by simpa [h] using hj)
  | array e b pad k ihe ih =>
    rintro s o env p ⟨xs, v⟩ pl r hw hf h8 he hr
    simp only [wf, Bool.and_eq_true, beq_iff_eq, decide_eq_true_eq, Bool.or_eq_true, bne_iff_ne, Bool.not_eq_true',
      ne_eq] at hw
    obtain ⟨⟨⟨⟨⟨⟨⟨ho, hwe⟩, hee⟩, hre⟩, hme⟩, hb⟩, hrest⟩, hwk⟩ := hw
    simp only [fits, Bool.and_eq_true, List.all_eq_true, Bool.or_eq_true, beq_iff_eq, decide_eq_true_eq] at hf
    obtain ⟨⟨⟨hfx, hfc⟩, hfp⟩, hfk⟩ := hf
    have hlen : (xs.flatMap (fun x => enc e x [])).length = (xs.map (fun x => width e x 0)).sum :=
      flatMap_length _ _ xs (fun x => by simpa using enc_length e x [])
    have hend : b = .rest → k = .done ∧ pad = 0 := by
      intro h; rcases hrest with h1 | h1
      · exact absurd h h1
      · exact h1
    have h1 := paddedDec_padTo (fun l => element (dec e (fun _ => 0) [] l)) (fun x => enc e x []) xs env b pad (enc k v pl ++ r)
      (by
        intro x hx r'
        rw [ihe [] 0 _ [] x [] r' hwe (hfx x hx) rfl (by simp) (by simp [hee])]; rfl)
      (by intro x; rw [enc_length]; have := width_min e x ([] : List Bool).length; omega)
      (by
        rw [hlen]; clear hfx hfc hfp hlen he
        induction xs with
        | nil => rfl
        | cons x xs ihx =>
          have := width_aligned e [] 0 x 0 hwe rfl
          simp only [List.map_cons, List.sum_cons]; omega)
      (by rw [hlen]; exact hfp)
      (by intro m hm; rw [hm] at hfc; simpa using hfc)
      (by
        intro i hi
        rw [he i (by rw [hi] at hb; simpa [Bound.known] using hb)]
        simp [announced, hi])
      (by
        intro i hi
        rw [he i (by rw [hi] at hb; simpa [Bound.known] using hb)]
        simp [announced, hi, hlen])
      (by
        intro h
        obtain ⟨hk, hp⟩ := hend h
        subst hk
        exact ⟨hp, by simpa [enc] using hr (by simp [endless, h])⟩)
    have hE : endless k = true → r = [] := fun h => hr (by simp [endless, h])
    have hS : ∀ i ∈ b.left s, env i = announced k i v pl.length := by
      intro i hi
      obtain ⟨ha, hb1, hb2⟩ := announced_left b s i hi
      rw [he i ha]; simp [announced, hb1, hb2]
    simp only [enc, dec, List.append_assoc, h1]
    rw [ih (b.left s) 0 env p v pl r hwk hfk h8 hS hE]
    rfl
  | group u k ihs ih =>
    rintro s o env p ⟨x, v⟩ pl r hw hf h8 he hr
    simp only [wf, Bool.and_eq_true, beq_iff_eq, Bool.not_eq_true'] at hw
    obtain ⟨⟨⟨⟨ho, hwu⟩, heu⟩, hru⟩, hwk⟩ := hw
    simp only [fits, Bool.and_eq_true] at hf
    simp only [enc, dec, List.append_assoc]
    rw [ihs [] 0 (fun _ => 0) [] x [] (enc k v pl ++ r) hwu hf.1 rfl (by simp) (by simp [heu])]
    simp only []
    rw [ih s 0 env p v pl r hwk hf.2 h8 he hr]
    rfl
  | payload b k ih =>
    intro s o env p (v : k.T) pl r hw hf h8 he hr
    simp only [wf, Bool.and_eq_true, beq_iff_eq, Bool.not_eq_true'] at hw
    obtain ⟨⟨⟨ho, hrk⟩, hwk⟩, hb⟩ := hw
    have hS : ∀ i ∈ b.left s, env i = announced k i v pl.length := by
      intro i hi
      obtain ⟨ha, hb1, hb2⟩ := announced_left b s i hi
      rw [he i ha]; simp [announced, hb2]
    have h1 : payloadDec env b (pl ++ (enc k v pl ++ r)) = some (pl, enc k v pl ++ r) := by
      cases b with
      | const n => simp at hb
      | count n => simp at hb
      | size i =>
        simp only [payloadDec]
        refine takeBits_append _ _ _ ?_
        rw [he i (by simpa using hb)]
        simp [announced]; omega
      | rest =>
        have hk : k = .done := by simpa using hb
        subst hk
        have : r = [] := hr (by simp [endless])
        simp [payloadDec, enc, this]
    have hE : endless k = true → r = [] := fun h => hr (by simp [endless, h])
    simp only [enc, dec, List.append_assoc, h1]
    rw [ih (b.left s) 0 env pl v pl r hwk hf h8 hS hE]
    simp only [hrk, room]; rfl

end Verif.Pdl
