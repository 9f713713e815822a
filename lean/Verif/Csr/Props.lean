import Verif.Csr.Lemmas

/-!
# C124: the CSR vendor command answers what it is asked

**C124.** On a controller that has the CSR vendor command, every such command is answered with one vendor specific event
that has the command's parameters with the action 1; a read of one of the four known values puts the value in; only a
write of the key of the supported features changes anything, and Read Local Supported Features then returns what was
written. No command stops the controller.

The last sentence is false (`C124_short_violated`, `C124_abort_violated`): without parameters, or with one or two octets,
the two writes at the end of the function are out of the bounds of the vector; a known thing with a value that is too
short fails an assertion. `C124_stops` says that there are no other cases. The other theorems carry the suffix for that
reason.
-/
namespace Verif.Csr

/-- A well-formed request, perhaps with more octets behind it, whose value is long enough is answered; the features are
changed only when they are set. -/
theorem C124_answer_partial (p : Props) (hs : p.supported = true) (r : Request) (hr : r.Ok)
    (hn : r.need ≤ r.value.length) (rest : List UInt8) :
    ∃ q, csr p (r.wire ++ rest) = .done q (.vendor (r.answer.wire ++ rest)) ∧ q.supported = true ∧
      (r.setsFeatures = false → q = p) ∧
      (r.setsFeatures = true → octetsLe 8 q.features = r.value.take 8) := by
  obtain ⟨action, seq, pad, target, value⟩ := r
  obtain ⟨h1, h2, h3, h4, h5, h6⟩ := hr
  cases target with
  | var id =>
    have hid : id ≠ 0x7003 := h3 id rfl
    simp only [Request.varid] at h1 h2 h5 h6
    simp only [Request.need, Request.setsFeatures, Bool.and_false] at hn
    have hc : 5 + value.length / 2 < 65536 := by omega
    obtain ⟨w0, w1, w3, w7, wl, wd⟩ := word_header action (5 + value.length / 2) seq id pad (value ++ rest) h1 hc h2
    have hw : Request.wire ⟨action, seq, pad, .var id, value⟩ ++ rest
        = 0xc2 :: (wordLe action ++ wordLe (5 + value.length / 2) ++ wordLe seq ++ wordLe id ++ wordLe pad
          ++ (value ++ rest)) := by
      simp [Request.wire, Request.body, Request.varid]
    rw [hw]
    generalize hl : (0xc2 :: (wordLe action ++ wordLe (5 + value.length / 2) ++ wordLe seq ++ wordLe id ++ wordLe pad
      ++ (value ++ rest)) : List UInt8) = l at w0 w1 w3 w7 wl wd
    have hlen : 2 * (word l 3 + (65536 - 5)) % 65536 = value.length := by rw [w3]; omega
    have hne : l ≠ [] := by rw [← hl]; simp
    refine ⟨p, ?_, hs, fun _ => rfl, by simp [Request.setsFeatures]⟩
    have hg : csr p l = varCommand p l action id value.length := by
      have ha : ¬ (octet l 0 ≠ 0xc2 ∨ l.length < 11) := by rw [w0, wl]; simp
      have hb : ¬ (l.length < 11 + value.length ∨ (id = 0x7003 ∧ value.length < 6)) := by
        rw [wl]; simp [hid]
      simp only [csr, hs, hne, ha, hlen, w1, w7, if_false, Bool.true_eq_false]
      rw [if_neg hb, if_neg hid]
    rw [hg, varCommand, wd, List.take_left]
    by_cases hz : action = 0
    · subst hz
      simp only [if_true] at hn
      rw [if_pos rfl, readVarid_known hn]
      simp only
      rw [complete_long (by simp [copyAt]; omega)]
      generalize hk : known (.var id) = k at hn
      have e1 : (k ++ value.drop k.length).length = value.length := by simp; omega
      have e5 : l.drop (11 + value.length) = rest := by rw [← List.drop_drop, wd, List.drop_left]
      simp only [copyAt, e1, e5, Request.wire, Request.answer, Request.body, Request.varid, hk, if_true]
      rw [← hl]
      simp [wordLe]
    · rw [if_neg hz, complete_long (by omega), ← hl]
      simp [wordLe, Request.wire, Request.answer, Request.body, Request.varid, hz]
  | key id stores =>
    have hid : id < 65536 := h4 id stores rfl
    simp only [Request.varid] at h1 h2 h5 h6
    have hb0 : (wordLe id ++ wordLe (value.length / 2) ++ wordLe stores ++ value).length = 6 + value.length := by
      simp [wordLe]; omega
    have hc : 5 + (6 + value.length) / 2 < 65536 := by omega
    obtain ⟨w0, w1, w3, w7, wl, wd⟩ := word_header action (5 + (6 + value.length) / 2) seq 0x7003 pad
      (wordLe id ++ wordLe (value.length / 2) ++ wordLe stores ++ (value ++ rest)) h1 hc (by decide)
    obtain ⟨w11, w13, wl', wd'⟩ := word_store action (5 + (6 + value.length) / 2) seq 0x7003 pad id (value.length / 2)
      stores (value ++ rest) hid (by omega)
    have hw : Request.wire ⟨action, seq, pad, .key id stores, value⟩ ++ rest
        = 0xc2 :: (wordLe action ++ wordLe (5 + (6 + value.length) / 2) ++ wordLe seq ++ wordLe 0x7003 ++ wordLe pad
          ++ (wordLe id ++ wordLe (value.length / 2) ++ wordLe stores ++ (value ++ rest))) := by
      simp only [Request.wire, Request.body, Request.varid, hb0]
      simp [wordLe]
    rw [hw]
    generalize hl : (0xc2 :: (wordLe action ++ wordLe (5 + (6 + value.length) / 2) ++ wordLe seq ++ wordLe 0x7003
      ++ wordLe pad ++ (wordLe id ++ wordLe (value.length / 2) ++ wordLe stores ++ (value ++ rest))) : List UInt8) = l
      at w0 w1 w3 w7 wl wd w11 w13 wl' wd'
    have hlen : 2 * (word l 3 + (65536 - 5)) % 65536 = 6 + value.length := by rw [w3]; omega
    have hlen2 : 2 * (value.length / 2) % 65536 = value.length := by omega
    have hne : l ≠ [] := by rw [← hl]; simp
    have hll : l.length = 17 + (value.length + rest.length) := by simpa using wl'
    have hg : csr p l = storeCommand p l action := by
      have ha : ¬ (octet l 0 ≠ 0xc2 ∨ l.length < 11) := by rw [w0, wl']; simp; omega
      have hb : ¬ (l.length < 11 + (6 + value.length) ∨ (True ∧ 6 + value.length < 6)) := by
        rw [hll]; simp; omega
      simp only [csr, hs, hne, ha, hlen, w1, w7, if_false, Bool.true_eq_false]
      rw [if_neg hb, if_pos trivial]
    have hshort : ¬ l.length < 17 + value.length := by rw [hll]; omega
    have hs' : storeCommand p l action = if action = 0 then
        match readPskey id value with
        | none => .abort
        | some value => complete p (copyAt l 17 value)
      else
        match writePskey id value p with
        | none => .abort
        | some p => complete p l := by
      simp only [storeCommand, w11, w13, hlen2, hshort, if_false, wd', List.take_left]
      rfl
    rw [hg, hs']
    by_cases hz : action = 0
    · subst hz
      refine ⟨p, ?_, hs, fun _ => rfl, by simp [Request.setsFeatures]⟩
      simp only [Request.need, if_true] at hn
      rw [if_pos rfl, readPskey_known (s := stores) hn]
      simp only
      rw [complete_long (by simp [copyAt]; omega)]
      generalize hk : known (.key id stores) = k at hn
      have e5 : l.drop (17 + value.length) = rest := by rw [← List.drop_drop, wd', List.drop_left]
      have e1 : (k ++ value.drop k.length).length = value.length := by simp; omega
      have e4 : (wordLe id ++ wordLe (value.length / 2) ++ wordLe stores ++ (k ++ value.drop k.length)).length
          = 6 + value.length := by
        simp only [List.length_append, wordLe_length] at e1 ⊢; omega
      simp only [Request.wire, Request.answer, Request.body, Request.varid, hk, if_true, e4, copyAt, e1, e5]
      rw [← hl]
      simp [wordLe]
    · rw [if_neg hz]
      have hw8 : ∃ q, writePskey id value p = some q := by
        by_cases he : id = 0xef
        · have : 8 ≤ value.length := by
            simpa [Request.need, Request.setsFeatures, hz, he] using hn
          simp [writePskey, he, this]
        · simp [writePskey, he]
      obtain ⟨q, hq⟩ := hw8
      obtain ⟨s1, s2⟩ := writePskey_spec hq
      refine ⟨q, ?_, by rw [s1, hs], ?_, ?_⟩
      · rw [hq]
        simp only
        rw [complete_long (by omega), ← hl]
        simp only [Request.wire, Request.answer, Request.body, Request.varid, hz, if_false, hb0]
        simp [wordLe]
      · intro hf
        rcases s2 with ⟨e, _⟩ | ⟨_, e⟩
        · simp [Request.setsFeatures, hz, e] at hf
        · exact e
      · intro hf
        rcases s2 with ⟨_, _, e⟩ | ⟨e, _⟩
        · exact e
        · simp [Request.setsFeatures, hz, e] at hf

/-- A read of the build identifier. -/
def readBuild : Request := ⟨0, 7, 0, .var 0x2819, [0, 0, 9, 9]⟩

/-- A write of the supported features. -/
def writeFeatures : Request := ⟨2, 8, 0, .key 0xef 0, [1, 2, 3, 4, 5, 6, 7, 8]⟩

/-- A read of the least length of a key. -/
def readKey : Request := ⟨0, 9, 0, .key 0xda 0, [0, 0]⟩

theorem readBuild_ok : readBuild.Ok := by
  constructor <;> simp [readBuild, Request.varid]

theorem writeFeatures_ok : writeFeatures.Ok := by
  constructor <;> simp [writeFeatures, Request.varid]

theorem readKey_ok : readKey.Ok := by
  constructor <;> simp [readKey, Request.varid]

example : readBuild.need ≤ readBuild.value.length ∧ writeFeatures.need ≤ writeFeatures.value.length ∧
    readKey.need ≤ readKey.value.length := by decide

example : csr ⟨true, 0⟩ readBuild.wire
    = .done ⟨true, 0⟩ (.vendor [0xc2, 1, 0, 7, 0, 7, 0, 0x19, 0x28, 0, 0, 0xe8, 0x30, 9, 9]) := by decide

/-- Any history of such requests is answered one by one, and the features are those written last. -/
theorem C124_history_partial (p : Props) (hs : p.supported = true) (rs : List Request)
    (hr : ∀ r ∈ rs, r.Ok ∧ r.need ≤ r.value.length) :
    ∃ q, runAll p (rs.map Request.wire) = some (q, rs.map fun r => .vendor r.answer.wire) ∧
      octetsLe 8 q.features = featuresAfter (octetsLe 8 p.features) rs := by
  induction rs generalizing p with
  | nil => exact ⟨p, rfl, rfl⟩
  | cons r rs ih =>
    obtain ⟨h1, h2⟩ := hr r (by simp)
    obtain ⟨q, hq, hqs, hsame, hset⟩ := C124_answer_partial p hs r h1 h2 []
    simp only [List.append_nil] at hq
    obtain ⟨q', hq', hf⟩ := ih q hqs fun r' hr' => hr r' (by simp [hr'])
    refine ⟨q', by simp [runAll, hq, hq'], ?_⟩
    rw [hf, featuresAfter]
    cases hb : r.setsFeatures with
    | true => rw [if_pos rfl, hset hb]
    | false => rw [if_neg (by simp), hsame hb]

example : ∀ r ∈ [readBuild, writeFeatures, readKey], r.Ok ∧ r.need ≤ r.value.length := by
  intro r hr
  simp only [List.mem_cons, List.not_mem_nil, or_false] at hr
  rcases hr with rfl | rfl | rfl
  · exact ⟨readBuild_ok, by decide⟩
  · exact ⟨writeFeatures_ok, by decide⟩
  · exact ⟨readKey_ok, by decide⟩

example : featuresAfter [0, 0, 0, 0, 0, 0, 0, 0] [readBuild, writeFeatures, readKey] = [1, 2, 3, 4, 5, 6, 7, 8] := by
  decide

/-- A controller without the command says so, whatever the parameters. -/
theorem C124_unsupported (p : Props) (hs : p.supported = false) (l : List UInt8) :
    csr p l = .done p .unknownCommand := by
  simp [csr, hs]

/-- What the event has in common with the command's parameters. -/
structure Echo (l e : List UInt8) : Prop where
  length : e.length = l.length
  action : e[1]? = some 1 ∧ e[2]? = some 0
  header : ∀ i, i < 11 → i ≠ 1 → i ≠ 2 → e[i]? = l[i]?

theorem Echo.complete {l m : List UInt8} (h3 : ¬ m.length < 3) (hl : m.length = l.length)
    (h : ∀ i, i < 11 → m[i]? = l[i]?) : Echo l ((m.set 1 1).set 2 0) := by
  constructor
  · simp [hl]
  · constructor
    · simp [List.getElem?_set]; omega
    · simp [List.getElem?_set]; omega
  · intro i hi h1 h2
    rw [List.getElem?_set_ne (by omega), List.getElem?_set_ne (by omega), h i hi]

theorem echo_complete {p q : Props} {l m e : List UInt8} (hc : complete p m = .done q (.vendor e))
    (hl : m.length = l.length) (h : ∀ i, i < 11 → m[i]? = l[i]?) :
    q = p ∧ Echo l e ∧ ∀ i, i ≠ 1 → i ≠ 2 → e[i]? = m[i]? := by
  unfold Csr.complete at hc
  split at hc
  · simp at hc
  · next h3 =>
    simp only [Outcome.done.injEq, Event.vendor.injEq] at hc
    obtain ⟨rfl, rfl⟩ := hc
    refine ⟨rfl, Echo.complete h3 hl h, fun i h1 h2 => ?_⟩
    rw [List.getElem?_set_ne (by omega), List.getElem?_set_ne (by omega)]

/-- Whatever the parameters: an event has as many octets, begins like the command, and says that it is an answer. Unless
the action is a read, there is no other difference. -/
theorem C124_echo_partial {p q : Props} {l e : List UInt8} (h : csr p l = .done q (.vendor e)) :
    Echo l e ∧ (l[1]? ≠ some 0 ∨ l[2]? ≠ some 0 → ∀ i, i ≠ 1 → i ≠ 2 → e[i]? = l[i]?) := by
  have plain : ∀ p', complete p' l = .done q (.vendor e) →
      Echo l e ∧ (l[1]? ≠ some 0 ∨ l[2]? ≠ some 0 → ∀ i, i ≠ 1 → i ≠ 2 → e[i]? = l[i]?) := by
    intro p' hc
    obtain ⟨_, h1, h2⟩ := echo_complete hc rfl (fun _ _ => rfl)
    exact ⟨h1, fun _ => h2⟩
  have zero : 11 ≤ l.length → word l 1 = 0 → ¬ (l[1]? ≠ some 0 ∨ l[2]? ≠ some 0) := by
    intro hl hz
    have h1 : octet l 1 = 0 := by simp only [word, Nat.reduceAdd] at hz; omega
    have h2 : octet l 2 = 0 := by simp only [word, Nat.reduceAdd] at hz; omega
    have g : ∀ i, i < l.length → octet l i = 0 → l[i]? = some 0 := by
      intro i hi ho
      rw [List.getElem?_eq_getElem hi]
      have : l.getD i 0 = l[i] := by simp [List.getD, hi]
      rw [octet, this] at ho
      congr 1
      exact UInt8.toNat_inj.1 ho
    simp [g 1 (by omega) h1, g 2 (by omega) h2]
  unfold csr at h
  split at h
  · simp at h
  split at h
  · exact plain p h
  split at h
  · exact plain p h
  next h11 =>
  have hl : 11 ≤ l.length := by
    have := fun hx => h11 (.inr hx)
    omega
  simp only at h
  split at h
  · exact plain p h
  next hb =>
  have hb1 := fun hx => hb (.inl hx)
  have hb2 := fun hx => hb (.inr hx)
  split at h
  · next hv =>
    unfold storeCommand at h
    simp only at h
    split at h
    · exact plain p h
    next hs =>
    split at h
    · next hz =>
      split at h
      · simp at h
      · next w hw =>
        have hlen := readPskey_length hw
        rw [List.length_take, List.length_drop] at hlen
        obtain ⟨_, h1, _⟩ := echo_complete h (copyAt_length (by omega)) (fun i hi => copyAt_low (by omega) (by omega))
        exact ⟨h1, fun hn => absurd hn (zero hl hz)⟩
    · split at h
      · simp at h
      · exact plain _ h
  · unfold varCommand at h
    simp only at h
    split at h
    · next hz =>
      split at h
      · simp at h
      · next w hw =>
        have hlen := readVarid_length hw
        rw [List.length_take, List.length_drop] at hlen
        obtain ⟨_, h1, _⟩ := echo_complete h (copyAt_length (by omega)) (fun i hi => copyAt_low (by omega) hi)
        exact ⟨h1, fun hn => absurd hn (zero hl hz)⟩
    · exact plain p h

example : csr ⟨true, 5⟩ [1, 2, 3] = .done ⟨true, 5⟩ (.vendor [1, 1, 0]) := by decide

theorem complete_props {p q : Props} {l : List UInt8} {e : Event} (h : complete p l = .done q e) : q = p := by
  unfold complete at h
  split at h
  · simp at h
  · cases h; rfl

/-- Whatever the parameters: only a write of the key of the supported features changes anything, and the new features are
octets of the command. -/
theorem C124_features_partial {p q : Props} {l : List UInt8} {e : Event} (h : csr p l = .done q e) (hne : q ≠ p) :
    q.supported = p.supported ∧ 25 ≤ l.length ∧ l[0]? = some 0xc2 ∧ (l[1]? ≠ some 0 ∨ l[2]? ≠ some 0) ∧
      l[7]? = some 0x03 ∧ l[8]? = some 0x70 ∧ l[11]? = some 0xef ∧ l[12]? = some 0x00 ∧
      octetsLe 8 q.features = (l.drop 17).take 8 := by
  have get : ∀ i, i < l.length → ∀ n, octet l i = n → l[i]? = some (UInt8.ofNat n) := by
    intro i hi n ho
    rw [List.getElem?_eq_getElem hi]
    have : l.getD i 0 = l[i] := by simp [List.getD, hi]
    rw [octet, this] at ho
    simp [← ho]
  unfold csr at h
  split at h
  · cases h; exact absurd rfl hne
  split at h
  · exact absurd (complete_props h) hne
  split at h
  · exact absurd (complete_props h) hne
  next h11 =>
  have hl : 11 ≤ l.length := by
    have := fun hx => h11 (.inr hx)
    omega
  have h0 : octet l 0 = 0xc2 := Decidable.not_not.1 fun hx => h11 (.inl hx)
  simp only at h
  split at h
  · exact absurd (complete_props h) hne
  next hb =>
  have hb1 := fun hx => hb (.inl hx)
  split at h
  · next hv =>
    have hb2 := fun hx => hb (.inr ⟨hv, hx⟩)
    unfold storeCommand at h
    simp only at h
    split at h
    · exact absurd (complete_props h) hne
    next hs =>
    split at h
    · split at h
      · simp at h
      · exact absurd (complete_props h) hne
    · next hz =>
      split at h
      · simp at h
      · next p' hw =>
        obtain ⟨e1, e2⟩ := writePskey_spec hw
        have hq := complete_props h
        subst hq
        rcases e2 with ⟨hi, h8, hf⟩ | ⟨_, e2⟩
        · rw [List.length_take, List.length_drop] at h8
          have o7 := octet_lt l 7
          have o11 := octet_lt l 11
          simp only [word, Nat.reduceAdd] at hv hi
          refine ⟨e1, by omega, get 0 (by omega) _ h0, ?_, get 7 (by omega) 0x03 (by omega),
            get 8 (by omega) 0x70 (by omega), get 11 (by omega) 0xef (by omega), get 12 (by omega) 0 (by omega), ?_⟩
          · refine Decidable.byContradiction fun hcon => hz ?_
            have c1 : l[1]? = some 0 := Decidable.not_not.1 fun hx => hcon (.inl hx)
            have c2 : l[2]? = some 0 := Decidable.not_not.1 fun hx => hcon (.inr hx)
            simp [word, octet, List.getD, c1, c2]
          · rw [hf, List.take_take, Nat.min_eq_left (by omega)]
        · exact absurd e2 hne
  · unfold varCommand at h
    simp only at h
    split at h
    · split at h
      · simp at h
      · exact absurd (complete_props h) hne
    · exact absurd (complete_props h) hne

example : csr ⟨true, 0⟩ writeFeatures.wire
    = .done ⟨true, 0x0807060504030201⟩ (.vendor writeFeatures.answer.wire) := by decide

/-- The only ways to stop the controller: fewer than three octets, or a known thing with too short a value. (The count of
words is in a word and is doubled: 8005 is as good as 5.) -/
theorem C124_stops (p : Props) (hs : p.supported = true) (l : List UInt8) :
    (csr p l = .outOfBounds ↔ l.length < 3) ∧
    (csr p l = .abort → 11 ≤ l.length ∧ l[0]? = some 0xc2 ∧
      ((word l 7 = 0x2819 ∧ word l 1 = 0 ∧ word l 3 % 32768 = 5) ∨
       (word l 7 = 0x7003 ∧ word l 1 = 0 ∧ word l 11 ∈ [0xda, 0xdb, 0x10d] ∧ word l 13 % 32768 = 0) ∨
       (word l 7 = 0x7003 ∧ word l 1 ≠ 0 ∧ word l 11 = 0xef ∧ word l 13 % 32768 < 4))) := by
  have long : ∀ m : List UInt8, m.length = l.length → 3 ≤ l.length → ∀ p', complete p' m ≠ .outOfBounds := by
    intro m hm h3 p' hc
    have := complete_oob.1 hc
    omega
  unfold csr
  rw [if_neg (by simp [hs])]
  split
  · next hn => exact ⟨complete_oob, fun h => absurd h (complete_ne_abort _ _)⟩
  split
  · exact ⟨complete_oob, fun h => absurd h (complete_ne_abort _ _)⟩
  next h11 =>
  have hl : 11 ≤ l.length := by
    have := fun hx => h11 (.inr hx)
    omega
  have h0 : octet l 0 = 0xc2 := Decidable.not_not.1 fun hx => h11 (.inl hx)
  have g0 : l[0]? = some 0xc2 := by
    rw [List.getElem?_eq_getElem (by omega)]
    have : l.getD 0 0 = l[0] := by simp [List.getD, show 0 < l.length by omega]
    rw [octet, this] at h0
    congr 1
    exact UInt8.toNat_inj.1 h0
  have o4 := octet_lt l 4
  have o3 := octet_lt l 3
  simp only
  split
  · exact ⟨complete_oob, fun h => absurd h (complete_ne_abort _ _)⟩
  next hb =>
  have hb1 := fun hx => hb (.inl hx)
  split
  · next hv =>
    have hb2 := fun hx => hb (.inr ⟨hv, hx⟩)
    unfold storeCommand
    simp only
    split
    · exact ⟨complete_oob, fun h => absurd h (complete_ne_abort _ _)⟩
    next hsh =>
    have hval : ((l.drop 17).take (2 * word l 13 % 65536)).length = 2 * word l 13 % 65536 := by
      rw [List.length_take, List.length_drop]; omega
    split
    · next hz =>
      split
      · next hr =>
        refine ⟨⟨fun h => by simp at h, fun h => by omega⟩, fun _ => ⟨hl, g0, .inr (.inl ⟨hv, hz, ?_⟩)⟩⟩
        unfold readPskey at hr
        rw [hval] at hr
        repeat' split at hr
        all_goals first
          | (simp at hr; done)
          | (refine ⟨by simp [*], by omega⟩)
      · next w hw =>
        have hlen := readPskey_length hw
        refine ⟨⟨fun h => absurd h (long _ (copyAt_length (by omega)) (by omega) _), fun h => by omega⟩,
          fun h => absurd h (complete_ne_abort _ _)⟩
    · next hz =>
      split
      · next hr =>
        refine ⟨⟨fun h => by simp at h, fun h => by omega⟩, fun _ => ⟨hl, g0, .inr (.inr ⟨hv, hz, ?_⟩)⟩⟩
        unfold writePskey at hr
        rw [hval] at hr
        repeat' split at hr
        all_goals first
          | (simp at hr; done)
          | (refine ⟨‹_›, by omega⟩)
      · exact ⟨⟨fun h => absurd h (long _ rfl (by omega) _), fun h => by omega⟩, fun h => absurd h (complete_ne_abort _ _)⟩
  · next hv =>
    unfold varCommand
    simp only
    have hval : ((l.drop 11).take (2 * (word l 3 + (65536 - 5)) % 65536)).length
        = 2 * (word l 3 + (65536 - 5)) % 65536 := by
      rw [List.length_take, List.length_drop]; omega
    split
    · next hz =>
      split
      · next hr =>
        refine ⟨⟨fun h => by simp at h, fun h => by omega⟩, fun _ => ⟨hl, g0, .inl ?_⟩⟩
        unfold readVarid at hr
        rw [hval] at hr
        split at hr
        · split at hr
          · simp at hr
          · exact ⟨‹_›, hz, by omega⟩
        · simp at hr
      · next w hw =>
        have hlen := readVarid_length hw
        refine ⟨⟨fun h => absurd h (long _ (copyAt_length (by omega)) (by omega) _), fun h => by omega⟩,
          fun h => absurd h (complete_ne_abort _ _)⟩
    · exact ⟨⟨fun h => absurd h (long _ rfl (by omega) _), fun h => by omega⟩, fun h => absurd h (complete_ne_abort _ _)⟩

/-- Without parameters, or with one or two octets, the function writes out of the bounds of the vector. -/
theorem C124_short_violated (f : Nat) (a b : UInt8) :
    csr ⟨true, f⟩ [] = .outOfBounds ∧ csr ⟨true, f⟩ [a] = .outOfBounds ∧ csr ⟨true, f⟩ [a, b] = .outOfBounds :=
  ⟨((C124_stops _ rfl _).1).2 (by simp), ((C124_stops _ rfl _).1).2 (by simp), ((C124_stops _ rfl _).1).2 (by simp)⟩

/-- Well-formed requests whose value is too short fail an assertion: a read of the build identifier, a read of a length,
a write of the features. -/
theorem C124_abort_violated :
    csr ⟨true, 0⟩ (Request.wire ⟨0, 0, 0, .var 0x2819, []⟩) = .abort ∧
    csr ⟨true, 0⟩ (Request.wire ⟨0, 0, 0, .key 0xda 0, []⟩) = .abort ∧
    csr ⟨true, 0⟩ (Request.wire ⟨2, 0, 0, .key 0xef 0, [1, 2, 3, 4, 5, 6]⟩) = .abort := by
  decide

/-- A count of 8005 is taken for 5: the request, which says that 65536 octets follow, aborts like one without a value. -/
theorem C124_wrap_violated :
    csr ⟨true, 0⟩ [0xc2, 0, 0, 0x05, 0x80, 0, 0, 0x19, 0x28, 0, 0] = .abort := by
  decide

end Verif.Csr
