import Verif.Pcap.Spec
import Mathlib.Data.List.Basic
import Mathlib.Data.List.Nodup
import Mathlib.Tactic.Linarith
/-! # Lemmas on the PCAP filter -/

namespace Verif.Pcap

/-! ## Decimal numbers -/

/-- The value of a list of digits. -/
def val : List Nat → Nat := List.foldl (fun a d => 10 * a + d) 0

theorem val_append_one (l : List Nat) (d : Nat) : val (l ++ [d]) = 10 * val l + d := by
  simp [val, List.foldl_append]

theorem val_dec (fuel : Nat) : ∀ n, n < fuel → val (dec fuel n) = n := by
  induction fuel with
  | zero => intro n h; omega
  | succ f ih =>
    intro n h
    unfold dec
    split
    · simp [val]
    · rw [val_append_one, ih _ (by omega)]
      omega

theorem dec_lt (fuel : Nat) : ∀ n, ∀ d ∈ dec fuel n, d < 10 := by
  induction fuel with
  | zero => intro n d h; simp [dec] at h
  | succ f ih =>
    intro n d h
    unfold dec at h
    split at h
    · simp at h; omega
    · rw [List.mem_append, List.mem_singleton] at h
      rcases h with h | h
      · exact ih _ d h
      · omega

theorem dec_length (fuel : Nat) : ∀ n k, 1 ≤ k → n < 10 ^ k → (dec fuel n).length ≤ k := by
  induction fuel with
  | zero => intro n k h _; simp [dec]
  | succ f ih =>
    intro n k hk h
    unfold dec
    split
    · simpa using hk
    · obtain ⟨j, rfl⟩ : ∃ j, k = j + 1 := ⟨k - 1, by omega⟩
      have : n / 10 < 10 ^ j := by
        rw [Nat.div_lt_iff_lt_mul (by omega)]
        rw [Nat.pow_succ] at h
        exact h
      have hj : 1 ≤ j := by
        by_contra hc
        have : j = 0 := by omega
        subst this
        simp at h
        omega
      have := ih (n / 10) j hj this
      simp only [List.length_append, List.length_cons, List.length_nil]
      omega

theorem val_dec2 (n : Nat) : val (dec2 n) = n := by
  unfold dec2
  simp only
  split
  · have h := val_dec (n + 1) n (by omega)
    simpa [val] using h
  · exact val_dec _ _ (by omega)

theorem dec2_lt (n : Nat) : ∀ d ∈ dec2 n, d < 10 := by
  unfold dec2
  simp only
  split
  · intro d hd
    rcases List.mem_cons.mp hd with rfl | hd
    · omega
    · exact dec_lt _ _ d hd
  · exact dec_lt _ _

theorem dec2_length {n k : Nat} (hk : 2 ≤ k) (h : n < 10 ^ k) : (dec2 n).length ≤ k := by
  have := dec_length (n + 1) n k (by omega) h
  unfold dec2
  simp only
  split
  · rw [List.length_cons]; omega
  · exact this

/-- The digit characters. -/
def digits (n : Nat) : Bytes := (dec2 n).map (fun d => UInt8.ofNat (0x30 + d))

def isDigit (c : UInt8) : Bool := 0x30 ≤ c && c ≤ 0x39

theorem digits_isDigit (n : Nat) : ∀ c ∈ digits n, isDigit c = true := by
  intro c hc
  obtain ⟨d, hd, rfl⟩ := List.mem_map.mp hc
  have := dec2_lt n d hd
  have : ∀ d : Fin 10, isDigit (UInt8.ofNat (0x30 + d.val)) = true := by decide +kernel
  exact this ⟨d, by assumption⟩

theorem digits_inj {n m : Nat} (h : digits n = digits m) : n = m := by
  have : dec2 n = dec2 m := by
    unfold digits at h
    have hb : ∀ (a b : List Nat), (∀ d ∈ a, d < 10) → (∀ d ∈ b, d < 10) →
        a.map (fun d => UInt8.ofNat (0x30 + d)) = b.map (fun d => UInt8.ofNat (0x30 + d)) → a = b := by
      intro a
      induction a with
      | nil => intro b _ _ h; cases b with
        | nil => rfl
        | cons => simp at h
      | cons x a ih =>
        intro b ha hb h
        cases b with
        | nil => simp at h
        | cons y b =>
          simp only [List.map_cons, List.cons.injEq] at h
          have hx := ha x (by simp)
          have hy := hb y (by simp)
          have h1 := congrArg UInt8.toNat h.1
          simp only [UInt8.toNat_ofNat'] at h1
          have : x = y := by omega
          rw [this, ih b (fun d hd => ha d (by simp [hd])) (fun d hd => hb d (by simp [hd])) h.2]
    exact hb _ _ (dec2_lt n) (dec2_lt m) h
  rw [← val_dec2 n, this, val_dec2]

theorem generateName_length (n len : Nat) (b : Bool) : (generateName n len b).length = len := by
  unfold generateName
  rw [List.length_append, List.length_take, List.length_replicate]
  omega

theorem generateName_eq (n len : Nat) (b : Bool) : generateName n len b =
    (text n ++ List.replicate (len - (text n).length) (if b then 0x20 else 0)).take len := by
  unfold generateName
  rw [List.take_append]
  congr 1
  rw [List.take_of_length_le]
  simp

theorem takeWhile_digits (a rest : Bytes) (ha : ∀ c ∈ a, isDigit c = true)
    (hr : ∀ c, rest.head? = some c → isDigit c = false) : (a ++ rest).takeWhile isDigit = a := by
  induction a with
  | nil =>
    cases rest with
    | nil => rfl
    | cons c r => simp [hr c rfl]
  | cons x a ih =>
    rw [List.cons_append, List.takeWhile_cons, ha x (by simp), if_pos rfl, ih (fun c hc => ha c (by simp [hc]))]

/-- A pseudonym that has room for the number determines it. -/
theorem generateName_digits {n len k : Nat} (b : Bool) (hk : 2 ≤ k) (hn : n < 10 ^ k) (hl : k + 1 ≤ len) :
    ((generateName n len b).drop 1).takeWhile isDigit = digits n := by
  have hd : (digits n).length ≤ k := by
    unfold digits; rw [List.length_map]; exact dec2_length hk hn
  rw [generateName_eq]
  have hlen : len = (len - 1) + 1 := by omega
  have htext : text n = 0x23 :: (digits n ++ suffix) := rfl
  rw [hlen, htext, List.cons_append, List.take_succ_cons, List.drop_one, List.tail_cons, List.append_assoc,
    List.take_append, List.take_of_length_le (by omega)]
  apply takeWhile_digits _ _ (digits_isDigit n)
  intro c hc
  cases hj : len - 1 - (digits n).length with
  | zero => rw [hj] at hc; simp at hc
  | succ j =>
    rw [hj] at hc
    simp only [suffix, List.cons_append, List.take_succ_cons, List.head?_cons, Option.some.injEq] at hc
    subst hc
    decide

theorem generateName_inj {n m len k : Nat} {b c : Bool} (hk : 2 ≤ k) (hn : n < 10 ^ k) (hm : m < 10 ^ k)
    (hl : k + 1 ≤ len) (h : generateName n len b = generateName m len c) : n = m := by
  apply digits_inj
  rw [← generateName_digits b hk hn hl, h, generateName_digits c hk hm hl]

/-! ## The name table -/

/-- Entry `i` of the table holds the `i`-th pseudonym, and no name occurs twice. -/
structure Good (m : Names) : Prop where
  nodup : (m.map (·.1)).Nodup
  gen : ∀ i (h : i < m.length), ∃ b, (m[i]).2 = generateName i (m[i]).1.length b

theorem good_nil : Good [] := ⟨by simp, by intro i h; simp at h⟩

theorem lookup_none {m : Names} {x : Bytes} : lookup m x = none ↔ x ∉ m.map (·.1) := by
  induction m with
  | nil => simp [lookup]
  | cons e m ih =>
    obtain ⟨o, n⟩ := e
    unfold lookup
    split
    · rename_i h
      simp [h]
    · rename_i h
      simp only [List.map_cons, List.mem_cons, not_or]
      rw [ih]
      constructor
      · intro h'; exact ⟨fun h'' => h h''.symm, h'⟩
      · exact fun h' => h'.2

theorem lookup_some {m : Names} {x y : Bytes} (h : lookup m x = some y) : ∃ i, ∃ hi : i < m.length, m[i] = (x, y) := by
  induction m with
  | nil => simp [lookup] at h
  | cons e m ih =>
    obtain ⟨o, n⟩ := e
    unfold lookup at h
    split at h
    · rename_i ho
      simp only [Option.some.injEq] at h
      exact ⟨0, by simp, by simp [ho, h]⟩
    · obtain ⟨i, hi, he⟩ := ih h
      exact ⟨i + 1, by simpa using hi, by simpa using he⟩

theorem lookup_append {m m' : Names} {x y : Bytes} (h : lookup m x = some y) : lookup (m ++ m') x = some y := by
  induction m with
  | nil => simp [lookup] at h
  | cons e m ih =>
    obtain ⟨o, n⟩ := e
    rw [List.cons_append]
    unfold lookup at h ⊢
    split
    · rename_i ho; rw [if_pos ho] at h; exact h
    · rename_i ho; rw [if_neg ho] at h; exact ih h

theorem lookup_append_none {m m' : Names} {x : Bytes} (h : lookup m x = none) : lookup (m ++ m') x = lookup m' x := by
  induction m with
  | nil => rfl
  | cons e m ih =>
    obtain ⟨o, n⟩ := e
    rw [List.cons_append]
    rw [lookup] at h ⊢
    split
    · rename_i ho; rw [if_pos ho] at h; cases h
    · rename_i ho; rw [if_neg ho] at h; exact ih h

/-- What a renaming does. -/
theorem changeName_spec {m : Names} (hg : Good m) (x : Bytes) (b : Bool) :
    Good (changeName m x b).1 ∧ (∃ e, (changeName m x b).1 = m ++ e) ∧
    lookup (changeName m x b).1 x = some (changeName m x b).2 ∧
    ∃ i c, i < (changeName m x b).1.length ∧ (changeName m x b).2 = generateName i x.length c := by
  unfold changeName
  cases hl : lookup m x with
  | some y =>
    obtain ⟨i, hi, he⟩ := lookup_some hl
    obtain ⟨c, hc⟩ := hg.gen i hi
    rw [he] at hc
    exact ⟨hg, ⟨[], by simp⟩, hl, i, c, hi, hc⟩
  | none =>
    simp only
    refine ⟨⟨?_, ?_⟩, ⟨_, rfl⟩, ?_, m.length, b, by simp, rfl⟩
    · rw [List.map_append, List.nodup_append]
      refine ⟨hg.nodup, by simp, ?_⟩
      intro a ha y hy
      simp only [List.map_cons, List.map_nil, List.mem_singleton] at hy
      rintro rfl
      exact lookup_none.mp hl (hy ▸ ha)
    · intro i hi
      by_cases h : i < m.length
      · rw [List.getElem_append_left h]; exact hg.gen i h
      · have : i = m.length := by simp at hi; omega
        subst this
        exact ⟨b, by simp⟩
    · rw [lookup_append_none hl]
      simp [lookup]

theorem changeName_length {m : Names} (hg : Good m) (x : Bytes) (b : Bool) :
    (changeName m x b).2.length = x.length := by
  obtain ⟨_, _, _, i, c, _, h⟩ := changeName_spec hg x b
  rw [h, generateName_length]

/-! ## GAP data -/

theorem filterGapFrom_length (fuel : Nat) : ∀ (m : Names) (data : Bytes), Good m →
    Good (filterGapFrom fuel m data).1 ∧ (filterGapFrom fuel m data).2.length = data.length := by
  induction fuel with
  | zero => intro m data h; unfold filterGapFrom; exact ⟨h, rfl⟩
  | succ f ih =>
    intro m data hg
    match data with
    | [] => unfold filterGapFrom; exact ⟨hg, rfl⟩
    | [a] => unfold filterGapFrom; exact ⟨hg, rfl⟩
    | l :: t :: rest =>
      unfold filterGapFrom
      split
      · exact ⟨hg, rfl⟩
      · rename_i hlen
        split
        · have := ih m (t :: rest) hg
          exact ⟨this.1, by simp [this.2]⟩
        · rename_i hl0
          have hl : 0 < l.toNat := by
            rcases Nat.eq_zero_or_pos l.toNat with h | h
            · exact absurd (UInt8.toNat_inj.mp h) hl0
            · exact h
          have hent : ((t :: rest).take l.toNat).length = l.toNat := by
            rw [List.length_take, List.length_cons]; omega
          by_cases hn : isName t = true
          · simp only [hn, if_true]
            obtain ⟨h1, _⟩ := changeName_spec hg (((t :: rest).take l.toNat).take (l.toNat - 1)) true
            have h2 := changeName_length hg (((t :: rest).take l.toNat).take (l.toNat - 1)) true
            obtain ⟨h3, h4⟩ := ih _ ((t :: rest).drop l.toNat) h1
            refine ⟨h3, ?_⟩
            simp only [List.cons_append, List.length_cons, List.length_append, h4, h2, List.length_drop,
              List.length_take]
            omega
          · simp only [hn, if_false, Bool.false_eq_true]
            obtain ⟨h3, h4⟩ := ih _ ((t :: rest).drop l.toNat) hg
            refine ⟨h3, ?_⟩
            simp only [List.cons_append, List.length_cons, List.length_append, h4, List.length_drop, List.length_take]
            omega

theorem filterGap_length {m : Names} (hg : Good m) (data : Bytes) :
    Good (filterGap m data).1 ∧ (filterGap m data).2.length = data.length :=
  filterGapFrom_length _ m data hg

/-! ## Parameters -/

theorem nameAt_spec {off : Nat} {m : Names} {ps : Bytes} {r : Names × Bytes} (hg : Good m)
    (h : nameAt off m ps = some r) : Good r.1 ∧ r.2.length = ps.length := by
  unfold nameAt at h
  split at h
  · rename_i hl
    simp only [Option.some.injEq] at h
    subst h
    refine ⟨(changeName_spec hg _ _).1, ?_⟩
    simp only [List.length_append, changeName_length hg, List.length_take, List.length_drop]
    omega
  · cases h

theorem eirAt_spec {off : Nat} {m : Names} {ps : Bytes} {r : Names × Bytes} (hg : Good m)
    (h : eirAt off m ps = some r) : Good r.1 ∧ r.2.length = ps.length := by
  unfold eirAt at h
  split at h
  · rename_i hl
    simp only [Option.some.injEq] at h
    subst h
    obtain ⟨h1, h2⟩ := filterGap_length hg (ps.drop off)
    refine ⟨h1, ?_⟩
    simp only [List.length_append, h2, List.length_take, List.length_drop]
    omega
  · cases h

theorem advData_spec {m : Names} {ps : Bytes} {r : Names × Bytes} (hg : Good m)
    (h : advData m ps = some r) : Good r.1 ∧ r.2.length = ps.length := by
  unfold advData at h
  split at h
  · rename_i s rest
    split at h
    · rename_i hl
      simp only [Option.some.injEq] at h
      subst h
      obtain ⟨h1, h2⟩ := filterGap_length hg (rest.take s.toNat)
      refine ⟨h1, ?_⟩
      simp only [List.cons_append, List.length_cons, List.length_append, h2, List.length_take, List.length_replicate]
      omega
    · cases h
  · cases h

theorem extAdvData_spec {m : Names} {ps : Bytes} {r : Names × Bytes} (hg : Good m)
    (h : extAdvData m ps = some r) : Good r.1 ∧ r.2.length = ps.length := by
  unfold extAdvData at h
  split at h
  · rename_i hd op frag s data
    split at h
    · simp only [Option.some.injEq] at h
      subst h
      obtain ⟨h1, h2⟩ := filterGap_length hg data
      exact ⟨h1, by simp [h2]⟩
    · cases h
  · cases h

theorem perAdvData_spec {m : Names} {ps : Bytes} {r : Names × Bytes} (hg : Good m)
    (h : perAdvData m ps = some r) : Good r.1 ∧ r.2.length = ps.length := by
  unfold perAdvData at h
  split at h
  · rename_i hd op s data
    split at h
    · simp only [Option.some.injEq] at h
      subst h
      obtain ⟨h1, h2⟩ := filterGap_length hg data
      exact ⟨h1, by simp [h2]⟩
    · cases h
  · cases h

theorem commandFilter_spec {op : Nat} {f : Names → Bytes → Result} (hf : commandFilter op = some f) {m : Names}
    {ps : Bytes} {r : Names × Bytes} (hg : Good m) (h : f m ps = some r) : Good r.1 ∧ r.2.length = ps.length := by
  unfold commandFilter at hf
  split at hf
  · simp only [Option.some.injEq] at hf; subst hf; exact nameAt_spec hg h
  split at hf
  · simp only [Option.some.injEq] at hf; subst hf; exact eirAt_spec hg h
  split at hf
  · simp only [Option.some.injEq] at hf; subst hf; exact advData_spec hg h
  split at hf
  · simp only [Option.some.injEq] at hf; subst hf; exact extAdvData_spec hg h
  split at hf
  · simp only [Option.some.injEq] at hf; subst hf; exact perAdvData_spec hg h
  · cases hf

theorem reports_spec {pre post : Nat} {hdr : Bytes → Bytes} (hh : ∀ l, (hdr l).length = l.length) (n : Nat) :
    ∀ {m : Names} {ps : Bytes} {r : Names × Bytes}, Good m → reports pre post hdr n m ps = some r →
    Good r.1 ∧ r.2.length = ps.length := by
  induction n with
  | zero =>
    intro m ps r hg h
    unfold reports at h
    split at h
    · rename_i hp
      simp only [Option.some.injEq] at h
      subst h; subst hp
      exact ⟨hg, rfl⟩
    · cases h
  | succ n ih =>
    intro m ps r hg h
    unfold reports at h
    split at h
    · cases h
    · rename_i s rest hd
      split at h
      · cases h
      · rename_i hl
        obtain ⟨h1, h2⟩ := filterGap_length hg (rest.take s.toNat)
        simp only at h
        split at h
        · cases h
        · rename_i q hq
          simp only [Option.some.injEq] at h
          subst h
          obtain ⟨h3, h4⟩ := ih h1 hq
          refine ⟨h3, ?_⟩
          have hlen := congrArg List.length hd
          simp only [List.length_drop, List.length_cons] at hlen
          simp only [List.cons_append, List.length_append, List.length_cons, hh, List.length_take, h2,
            List.length_drop, h4]
          omega

theorem extReportHeader_length (l : Bytes) : (extReportHeader l).length = l.length := by
  simp [extReportHeader]

theorem eirResultHeader_length (l : Bytes) : (eirResultHeader l).length = l.length := by
  simp [eirResultHeader]

theorem readLocalName_spec {m : Names} {ps : Bytes} {r : Names × Bytes} (hg : Good m)
    (h : readLocalName m ps = some r) : Good r.1 ∧ r.2.length = ps.length := by
  unfold readLocalName at h
  split at h
  · split at h
    · exact nameAt_spec hg h
    · simp only [Option.some.injEq] at h; subst h; exact ⟨hg, rfl⟩
  · cases h

theorem readEir_spec {m : Names} {ps : Bytes} {r : Names × Bytes} (hg : Good m)
    (h : readEir m ps = some r) : Good r.1 ∧ r.2.length = ps.length := by
  unfold readEir at h
  split at h
  · split at h
    · exact eirAt_spec hg h
    · simp only [Option.some.injEq] at h; subst h; exact ⟨hg, rfl⟩
  · cases h

theorem remoteName_spec {m : Names} {ps : Bytes} {r : Names × Bytes} (hg : Good m)
    (h : remoteName m ps = some r) : Good r.1 ∧ r.2.length = ps.length := by
  unfold remoteName at h
  split at h
  · split at h
    · exact nameAt_spec hg h
    · simp only [Option.some.injEq] at h; subst h; exact ⟨hg, rfl⟩
  · cases h

theorem eirResult_spec {m : Names} {ps : Bytes} {r : Names × Bytes} (hg : Good m)
    (h : eirResult m ps = some r) : Good r.1 ∧ r.2.length = ps.length := by
  unfold eirResult at h
  split at h
  · have := eirAt_spec hg h
    rw [eirResultHeader_length] at this
    exact this
  · cases h

theorem map_spec {x : Result} {ps pre : Bytes} {r : Names × Bytes}
    (hx : ∀ q, x = some q → Good q.1 ∧ q.2.length = ps.length)
    (h : x.map (fun r => (r.1, pre ++ r.2)) = some r) : Good r.1 ∧ r.2.length = (pre ++ ps).length := by
  rw [Option.map_eq_some_iff] at h
  obtain ⟨q, hq, rfl⟩ := h
  obtain ⟨h1, h2⟩ := hx q hq
  exact ⟨h1, by simp [h2]⟩

theorem eventParams_spec {m : Names} {c : UInt8} {ps : Bytes} {r : Names × Bytes} (hg : Good m)
    (h : eventParams m c ps = some (some r)) : Good r.1 ∧ r.2.length = ps.length := by
  unfold eventParams at h
  split at h
  · split at h
    · rename_i n rest
      simp only [Option.some.injEq] at h
      exact map_spec (pre := [0x02, n]) (fun q hq => reports_spec (fun _ => rfl) _ hg hq) h
    · rename_i n rest
      simp only [Option.some.injEq] at h
      exact map_spec (pre := [0x0D, n]) (fun q hq => reports_spec extReportHeader_length _ hg hq) h
    · cases h
    · cases h
    · cases h
    · cases h
  split at h
  · split at h
    · rename_i k o0 o1 rest
      split at h
      · simp only [Option.some.injEq] at h
        exact map_spec (pre := [k, o0, o1]) (fun q hq => readLocalName_spec hg hq) h
      split at h
      · simp only [Option.some.injEq] at h
        exact map_spec (pre := [k, o0, o1]) (fun q hq => readEir_spec hg hq) h
      · cases h
    · cases h
  split at h
  · simp only [Option.some.injEq] at h; exact remoteName_spec hg h
  split at h
  · simp only [Option.some.injEq] at h; exact eirResult_spec hg h
  · cases h

end Verif.Pcap
