import Verif.Csr.Model
import Verif.Csr.Spec

/-! # Lemmas about the CSR vendor command -/
namespace Verif.Csr

theorem octet_lt (l : List UInt8) (i : Nat) : octet l i < 256 := UInt8.toNat_lt _

theorem octet_ofNat (n : Nat) : (UInt8.ofNat n).toNat = n % 256 := by simp [UInt8.toNat_ofNat']

theorem complete_long {p : Props} {l : List UInt8} (h : 3 ≤ l.length) :
    complete p l = .done p (.vendor ((l.set 1 1).set 2 0)) := by
  simp [complete, Nat.not_lt.2 h]

theorem complete_ne_abort (p : Props) (l : List UInt8) : complete p l ≠ .abort := by
  unfold complete; split <;> simp

theorem complete_oob {p : Props} {l : List UInt8} : complete p l = .outOfBounds ↔ l.length < 3 := by
  unfold complete; split <;> simp [*]

theorem readVarid_length {id : Nat} {v w : List UInt8} (h : readVarid id v = some w) : w.length = v.length := by
  unfold readVarid at h
  split at h
  · split at h <;> simp at h
    simp [← h]
  · simp at h; simp [h]

theorem readPskey_length {id : Nat} {v w : List UInt8} (h : readPskey id v = some w) : w.length = v.length := by
  unfold readPskey at h
  repeat' split at h
  all_goals first
    | (simp at h; done)
    | (simp at h; simp [← h])

theorem copyAt_length {l v : List UInt8} {i : Nat} (h : i + v.length ≤ l.length) : (copyAt l i v).length = l.length := by
  simp [copyAt]; omega

theorem copyAt_low {l v : List UInt8} {i k : Nat} (h : i ≤ l.length) (hk : k < i) : (copyAt l i v)[k]? = l[k]? := by
  have h1 : k < (l.take i).length := by simp; omega
  rw [copyAt, List.append_assoc, List.getElem?_append_left h1, List.getElem?_take_of_lt hk]

/-- Octets from a list of eight. -/
theorem octets_value (v : List UInt8) (h : 8 ≤ v.length) :
    octetsLe 8 (octet v 0 + 2 ^ 8 * octet v 1 + 2 ^ 16 * octet v 2 + 2 ^ 24 * octet v 3
      + 2 ^ 32 * octet v 4 + 2 ^ 40 * octet v 5 + 2 ^ 48 * octet v 6 + 2 ^ 56 * octet v 7) = v.take 8 := by
  match v, h with
  | a :: b :: c :: d :: e :: f :: g :: i :: t, _ =>
    have ha := a.toNat_lt
    have hb := b.toNat_lt
    have hc := c.toNat_lt
    have hd := d.toNat_lt
    have he := e.toNat_lt
    have hf := f.toNat_lt
    have hg := g.toNat_lt
    have hi := i.toNat_lt
    simp only [octet, octetsLe, List.getD_cons_zero, List.getD_cons_succ, List.take_succ_cons, List.take_zero,
      List.cons.injEq, and_true]
    refine ⟨?_, ?_, ?_, ?_, ?_, ?_, ?_, ?_⟩ <;>
      (apply UInt8.toNat_inj.1; rw [octet_ofNat]; omega)

theorem writePskey_spec {id : Nat} {v : List UInt8} {p q : Props} (h : writePskey id v p = some q) :
    q.supported = p.supported ∧
      ((id = 0xef ∧ 8 ≤ v.length ∧ octetsLe 8 q.features = v.take 8) ∨ (id ≠ 0xef ∧ q = p)) := by
  unfold writePskey at h
  split at h
  · split at h
    · next h8 =>
      cases h
      exact ⟨rfl, .inl ⟨‹_›, h8, octets_value v h8⟩⟩
    · simp at h
  · cases h
    exact ⟨rfl, .inr ⟨‹_›, rfl⟩⟩

theorem wordLe_length (n : Nat) : (wordLe n).length = 2 := rfl

theorem take_set_two (v : List UInt8) (a b : UInt8) (h : 2 ≤ v.length) : (v.set 0 a).set 1 b = [a, b] ++ v.drop 2 := by
  match v, h with
  | _ :: _ :: _, _ => rfl

theorem take_set_one (v : List UInt8) (a : UInt8) (h : 1 ≤ v.length) : v.set 0 a = [a] ++ v.drop 1 := by
  match v, h with
  | _ :: _, _ => rfl

/-- Reading a variable puts in what is known of it. -/
theorem readVarid_known {id : Nat} {v : List UInt8} (h : (known (.var id)).length ≤ v.length) :
    readVarid id v = some (known (.var id) ++ v.drop (known (.var id)).length) := by
  by_cases h1 : id = 0x2819
  · subst h1
    have h2 : 2 ≤ v.length := by simpa [known] using h
    simp [readVarid, known, h2, take_set_two v _ _ h2]
  · simp [readVarid, known, h1]

theorem readPskey_known {id s : Nat} {v : List UInt8} (h : (known (.key id s)).length ≤ v.length) :
    readPskey id v = some (known (.key id s) ++ v.drop (known (.key id s)).length) := by
  by_cases h1 : id = 0xda
  · subst h1
    have h2 : 1 ≤ v.length := by simpa [known] using h
    simp [readPskey, known, h2, take_set_one v _ h2]
  · by_cases h3 : id = 0xdb
    · subst h3
      have h2 : 1 ≤ v.length := by simpa [known] using h
      simp [readPskey, known, h2, take_set_one v _ h2]
    · by_cases h4 : id = 0x10d
      · subst h4
        have h2 : 2 ≤ v.length := by simpa [known] using h
        simp [readPskey, known, h2, take_set_two v _ _ h2]
      · simp [readPskey, known, h1, h3, h4]

/-- The words of a list that begins with the header of a request. -/
theorem word_header (a c s i d : Nat) (t : List UInt8) (ha : a < 65536) (hc : c < 65536) (hi : i < 65536) :
    let l := 0xc2 :: (wordLe a ++ wordLe c ++ wordLe s ++ wordLe i ++ wordLe d ++ t)
    octet l 0 = 0xc2 ∧ word l 1 = a ∧ word l 3 = c ∧ word l 7 = i ∧ l.length = 11 + t.length ∧ l.drop 11 = t := by
  refine ⟨?_, ?_, ?_, ?_, ?_, ?_⟩
  · rfl
  · simp [word, octet, wordLe]; omega
  · simp [word, octet, wordLe]; omega
  · simp [word, octet, wordLe]; omega
  · simp [wordLe]; omega
  · simp [wordLe]

/-- The header of the persistent store. -/
theorem word_store (a c s i d k n m : Nat) (t : List UInt8) (hk : k < 65536) (hn : n < 65536) :
    let l := 0xc2 :: (wordLe a ++ wordLe c ++ wordLe s ++ wordLe i ++ wordLe d ++ (wordLe k ++ wordLe n ++ wordLe m ++ t))
    word l 11 = k ∧ word l 13 = n ∧ l.length = 17 + t.length ∧ l.drop 17 = t := by
  refine ⟨?_, ?_, ?_, ?_⟩
  · simp [word, octet, wordLe]; omega
  · simp [word, octet, wordLe]; omega
  · simp [wordLe]; omega
  · simp [wordLe]

end Verif.Csr
