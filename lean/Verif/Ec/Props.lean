import Verif.Ec.KeyLemmas

/-!
# C33 (pairing key exchange) and C56 (public keys of a peer cannot abort pairing)

C33 in full: for any two private keys, when each device derives the shared key from its own private
key and the public key octets the other transmitted, both obtain the same key.  This is false of the
code (`C33_same_key_violated`, `C33_sign_violated`).  What holds:

* `C33_generate`: which random octets give a key, and which key;
* `C33_derive`: the point arithmetic is right — the public key of every private key has the
  coordinates of `k • G` modulo the prime, and the octets carry each coordinate exactly if it fits;
* `C33_shared_partial`: if both public keys survive the octets, both devices compute the coordinates
  of the same point `(a b) • G`, and the same octets if the signs of the representatives agree.
-/

namespace Verif.Ec

/-- C33, key generation: drawing any 24 random octets gives a private key with a positive value,
except for the octets of −2¹⁹¹, which make `generate_p192` panic. -/
theorem C33_generate_p192 (random : List Octet) (h : random.length = 24) :
    (fromSignedLe random = -2 ^ 191 ∧ generate p192 random = .panic) ∨
      (fromSignedLe random ≠ -2 ^ 191 ∧
        ∃ key, generate p192 random = .ok key ∧ ValidKey 24 key ∧
          fromSignedLe key = if fromSignedLe random = 0 then 1 else |fromSignedLe random|) := by
  have hk : p192.keySize = 24 := rfl
  have e : (256 : Int) ^ 24 = 2 * 2 ^ 191 := by norm_num
  rcases generate_cases p192 (by decide) random h with ⟨h1, h2⟩ | ⟨h1, h2⟩
  · rw [hk, e] at h1
    exact Or.inl ⟨by omega, h2⟩
  · rw [hk, e] at h1
    exact Or.inr ⟨by omega, h2⟩

/-- C33, key generation, for P-256. -/
theorem C33_generate_p256 (random : List Octet) (h : random.length = 32) :
    (fromSignedLe random = -2 ^ 255 ∧ generate p256 random = .panic) ∨
      (fromSignedLe random ≠ -2 ^ 255 ∧
        ∃ key, generate p256 random = .ok key ∧ ValidKey 32 key ∧
          fromSignedLe key = if fromSignedLe random = 0 then 1 else |fromSignedLe random|) := by
  have hk : p256.keySize = 32 := rfl
  have e : (256 : Int) ^ 32 = 2 * 2 ^ 255 := by norm_num
  rcases generate_cases p256 (by decide) random h with ⟨h1, h2⟩ | ⟨h1, h2⟩
  · rw [hk, e] at h1
    exact Or.inl ⟨by omega, h2⟩
  · rw [hk, e] at h1
    exact Or.inr ⟨by omega, h2⟩

/-- C33, public keys on P-192: deriving the public key of any private key succeeds, and its octets
carry integers congruent to the coordinates of `k • G`. -/
theorem C33_derive_p192 (key : List Octet) (h : ValidKey 24 key) :
    ∃ (pub : List Octet) (x y : Int), derive p192 key = .ok pub ∧ Carries 24 pub x y ∧
      |x| < nist192.p ∧ |y| < nist192.p ∧ nist192.IsPoint x y (keyValue key • g192) := by
  obtain ⟨x, y, h1, h2, h3, h4⟩ := derive_octets setup192 h
  exact ⟨_, x, y, h1, carries_resize 24 (by decide) x y, h2, h3, h4⟩

/-- C33, public keys on P-256. -/
theorem C33_derive_p256 (key : List Octet) (h : ValidKey 32 key) :
    ∃ (pub : List Octet) (x y : Int), derive p256 key = .ok pub ∧ Carries 32 pub x y ∧
      |x| < nist256.p ∧ |y| < nist256.p ∧ nist256.IsPoint x y (keyValue key • g256) := by
  obtain ⟨x, y, h1, h2, h3, h4⟩ := derive_octets setup256 h
  exact ⟨_, x, y, h1, carries_resize 32 (by decide) x y, h2, h3, h4⟩

/-- Both devices' shared keys, for any curve. -/
theorem shared_both {c : Curve} {d : Domain} [Fact (Nat.Prime d.p)] {G : d.curve.Point}
    (S : Setup c d G) (a b pubA pubB : List Octet) (ha : ValidKey c.keySize a)
    (hb : ValidKey c.keySize b) (hA : Denotes d c.keySize pubA (keyValue a • G))
    (hB : Denotes d c.keySize pubB (keyValue b • G)) :
    ∃ (ka kb : List Octet) (x y x' y' : Int),
      sharedSecret c a pubB = .ok ka ∧ sharedSecret c b pubA = .ok kb ∧
      Carries c.keySize ka x y ∧ Carries c.keySize kb x' y' ∧
      d.IsPoint x y ((keyValue a * keyValue b) • G) ∧
      d.IsPoint x' y' ((keyValue a * keyValue b) • G) ∧
      (x : ZMod d.p) = x' ∧ (y : ZMod d.p) = y' ∧
      ((0 ≤ x ↔ 0 ≤ x') → (0 ≤ y ↔ 0 ≤ y') → ka = kb) := by
  obtain ⟨-, pa, la⟩ := keyValue_spec S ha
  obtain ⟨-, pb, lb⟩ := keyValue_spec S hb
  obtain ⟨x, y, h1, hx, hy, hp⟩ := sharedSecret_octets S ha pb lb hB
  obtain ⟨x', y', h1', hx', hy', hp'⟩ := sharedSecret_octets S hb pa la hA
  rw [Nat.mul_comm] at hp'
  obtain ⟨ex, ey⟩ := isPoint_congr hp hp'
  refine ⟨_, _, x, y, x', y', h1, h1', carries_resize _ S.hsize x y, carries_resize _ S.hsize x' y',
    hp, hp', ex, ey, ?_⟩
  intro sx sy
  rw [eq_of_sign hx hx' ex sx, eq_of_sign hy hy' ey sy]

/-- C33 on P-192, for public keys that survive their octets.  Missing from C33: public keys whose
coordinates do not fit (`C33_same_key_violated`), and shared coordinates computed with different
signs (`C33_sign_violated`). -/
theorem C33_shared_p192_partial (a b pubA pubB : List Octet) (ha : ValidKey 24 a)
    (hb : ValidKey 24 b) (hA : derive p192 a = .ok pubA) (hB : derive p192 b = .ok pubB)
    (fA : Denotes nist192 24 pubA (keyValue a • g192))
    (fB : Denotes nist192 24 pubB (keyValue b • g192)) :
    ∃ (ka kb : List Octet) (x y x' y' : Int),
      sharedSecret p192 a pubB = .ok ka ∧ sharedSecret p192 b pubA = .ok kb ∧
      Carries 24 ka x y ∧ Carries 24 kb x' y' ∧
      nist192.IsPoint x y ((keyValue a * keyValue b) • g192) ∧
      nist192.IsPoint x' y' ((keyValue a * keyValue b) • g192) ∧
      (x : ZMod nist192.p) = x' ∧ (y : ZMod nist192.p) = y' ∧
      ((0 ≤ x ↔ 0 ≤ x') → (0 ≤ y ↔ 0 ≤ y') → ka = kb) :=
  shared_both setup192 a b pubA pubB ha hb fA fB

/-- C33 on P-256, for public keys that survive their octets. -/
theorem C33_shared_p256_partial (a b pubA pubB : List Octet) (ha : ValidKey 32 a)
    (hb : ValidKey 32 b) (hA : derive p256 a = .ok pubA) (hB : derive p256 b = .ok pubB)
    (fA : Denotes nist256 32 pubA (keyValue a • g256))
    (fB : Denotes nist256 32 pubB (keyValue b • g256)) :
    ∃ (ka kb : List Octet) (x y x' y' : Int),
      sharedSecret p256 a pubB = .ok ka ∧ sharedSecret p256 b pubA = .ok kb ∧
      Carries 32 ka x y ∧ Carries 32 kb x' y' ∧
      nist256.IsPoint x y ((keyValue a * keyValue b) • g256) ∧
      nist256.IsPoint x' y' ((keyValue a * keyValue b) • g256) ∧
      (x : ZMod nist256.p) = x' ∧ (y : ZMod nist256.p) = y' ∧
      ((0 ≤ x ↔ 0 ≤ x') → (0 ≤ y ↔ 0 ≤ y') → ka = kb) :=
  shared_both setup256 a b pubA pubB ha hb fA fB

/-- The private key with a small value. -/
def smallKey (n : Nat) (v : UInt8) : List Octet := v :: List.replicate (n - 1) 0

/-- The shared keys two devices compute, each from the public key octets of the other. -/
def exchange (c : Curve) (a b : List Octet) : Res (List Octet) × Res (List Octet) :=
  ((derive c b).bind (sharedSecret c a), (derive c a).bind (sharedSecret c b))

/-- C33 is violated: the private keys 2 and 3 derive public keys and shared keys without any error,
and the shared keys differ, on both curves; even their first coordinates differ. -/
theorem C33_same_key_violated :
    ValidKey 24 (smallKey 24 2) ∧ ValidKey 24 (smallKey 24 3) ∧
    ValidKey 32 (smallKey 32 2) ∧ ValidKey 32 (smallKey 32 3) ∧
    (∃ ka kb, exchange p192 (smallKey 24 2) (smallKey 24 3) = (.ok ka, .ok kb) ∧
      (natOfLe (ka.take 24) : ZMod nist192.p) ≠ natOfLe (kb.take 24)) ∧
    (∃ ka kb, exchange p256 (smallKey 32 2) (smallKey 32 3) = (.ok ka, .ok kb) ∧
      (natOfLe (ka.take 32) : ZMod nist256.p) ≠ natOfLe (kb.take 32)) := by
  refine ⟨⟨rfl, by decide +kernel⟩, ⟨rfl, by decide +kernel⟩, ⟨rfl, by decide +kernel⟩,
    ⟨rfl, by decide +kernel⟩, ?_, ?_⟩
  · refine ⟨(match exchange p192 (smallKey 24 2) (smallKey 24 3) with | (.ok a, _) => a | _ => []),
      (match exchange p192 (smallKey 24 2) (smallKey 24 3) with | (_, .ok b) => b | _ => []),
      by decide +kernel, ?_⟩
    rw [Ne, ZMod.natCast_eq_natCast_iff]
    unfold Nat.ModEq
    decide +kernel
  · refine ⟨(match exchange p256 (smallKey 32 2) (smallKey 32 3) with | (.ok a, _) => a | _ => []),
      (match exchange p256 (smallKey 32 2) (smallKey 32 3) with | (_, .ok b) => b | _ => []),
      by decide +kernel, ?_⟩
    rw [Ne, ZMod.natCast_eq_natCast_iff]
    unfold Nat.ModEq
    decide +kernel

/-- Whether a public key survives its octets: both coordinates fit. -/
def publicFits (c : Curve) (key : List Octet) : Bool :=
  match toAffine c (mul c (base c) (fromSignedLe key)) with
  | .ok (some (x, y)) => decide (Fits c.keySize x) && decide (Fits c.keySize y)
  | _ => false

/-- C33 is violated even by public keys that survive their octets: on P-192 with the private keys 3
and 11, and on P-256 with 3 and 5, both public keys fit and the octets of the shared keys differ,
because one device computes a coordinate and the other the same coordinate minus the prime. -/
theorem C33_sign_violated :
    publicFits p192 (smallKey 24 3) = true ∧ publicFits p192 (smallKey 24 11) = true ∧
    (exchange p192 (smallKey 24 3) (smallKey 24 11)).1 ≠
      (exchange p192 (smallKey 24 3) (smallKey 24 11)).2 ∧
    publicFits p256 (smallKey 32 3) = true ∧ publicFits p256 (smallKey 32 5) = true ∧
    (exchange p256 (smallKey 32 3) (smallKey 32 5)).1 ≠
      (exchange p256 (smallKey 32 3) (smallKey 32 5)).2 := by
  refine ⟨?_, ?_, ?_, ?_, ?_, ?_⟩ <;> decide +kernel

/-- C33 is violated by key generation: one draw of the random octets panics. -/
theorem C33_generate_violated :
    generate p192 (List.replicate 23 0 ++ [0x80]) = .panic ∧
      generate p256 (List.replicate 31 0 ++ [0x80]) = .panic := by
  constructor <;> decide +kernel

/-- The hypotheses of `C33_shared_p256_partial` are met: the private keys 3 and 17 on P-256 have
public keys that fit, and their devices agree on the octets of the shared key. -/
example : publicFits p256 (smallKey 32 3) = true ∧ publicFits p256 (smallKey 32 17) = true ∧
    (exchange p256 (smallKey 32 3) (smallKey 32 17)).1 =
      (exchange p256 (smallKey 32 3) (smallKey 32 17)).2 ∧
    (exchange p256 (smallKey 32 3) (smallKey 32 17)).1 ≠ .panic := by
  refine ⟨?_, ?_, ?_, ?_⟩ <;> decide +kernel

/-- A public key that fits denotes its point. -/
theorem denotes_of_carries (d : Domain) (n : Nat) (pub : List Octet) (x y : Int)
    (Q : d.curve.Point) (h : Carries n pub x y) (hx : Fits n x) (hy : Fits n y)
    (hp : d.IsPoint x y Q) : Denotes d n pub Q := by
  refine ⟨h.1, ?_⟩
  rw [h.2.1.2 hx, h.2.2.2 hy]
  exact hp

/-- The hypotheses of `C33_shared_p256_partial` are met by the base point itself. -/
example : ∃ pub, derive p256 (smallKey 32 1) = .ok pub ∧
    Denotes nist256 32 pub (keyValue (smallKey 32 1) • g256) := by
  refine ⟨resize 32 (toSignedLe p256.gx) ++ resize 32 (toSignedLe p256.gy), by decide +kernel, ?_⟩
  refine denotes_of_carries _ _ _ _ _ _ (carries_resize 32 (by decide) _ _) (by decide +kernel)
    (by decide +kernel) ?_
  have : keyValue (smallKey 32 1) = 1 := by decide +kernel
  rw [this, one_nsmul]
  have e1 : ((p256.gx : Int) : ZMod nist256.p) = (nist256.gx : ℕ) := by
    have : p256.gx = ((nist256.gx : ℕ) : Int) := by decide +kernel
    rw [this]; simp
  have e2 : ((p256.gy : Int) : ZMod nist256.p) = (nist256.gy : ℕ) := by
    have : p256.gy = ((nist256.gy : ℕ) : Int) := by decide +kernel
    rw [this]; simp
  rw [e1, e2]
  exact ⟨g256_on, rfl⟩

/-- C56 on P-192: a shared key is computed, without a panic, for every public key that denotes a
non-zero multiple of the base point.  Missing from C56: other octets
(`C56_public_key_violated`). -/
theorem C56_valid_p192_partial (key pub : List Octet) (b : Nat) (hk : ValidKey 24 key) (hb : 0 < b)
    (hbn : b < nist192.n) (h : Denotes nist192 24 pub (b • g192)) :
    ∃ ka, sharedSecret p192 key pub = .ok ka ∧ ka.length = 48 := by
  obtain ⟨x, y, h1, -⟩ := sharedSecret_octets setup192 hk hb hbn h
  exact ⟨_, h1, by simp [resize_length]; rfl⟩

/-- C56 on P-256, for public keys that denote a non-zero multiple of the base point. -/
theorem C56_valid_p256_partial (key pub : List Octet) (b : Nat) (hk : ValidKey 32 key) (hb : 0 < b)
    (hbn : b < nist256.n) (h : Denotes nist256 32 pub (b • g256)) :
    ∃ ka, sharedSecret p256 key pub = .ok ka ∧ ka.length = 64 := by
  obtain ⟨x, y, h1, -⟩ := sharedSecret_octets setup256 hk hb hbn h
  exact ⟨_, h1, by simp [resize_length]; rfl⟩

theorem mulLoop_inf (c : Curve) (fuel : Nat) (R : Pt) (i : Int) : mulLoop c fuel R .inf i = R := by
  induction fuel generalizing R i with
  | zero => rfl
  | succ n ih =>
    unfold mulLoop
    have ha : add c R .inf = R := by cases R <;> rfl
    simp only [ha, dbl, ite_self, ih]

theorem mul_zero_even (c : Curve) (x z : Int) (k : Int) (hk : k % 2 = 0) :
    mul c (.fin x 0 z) k = .inf := by
  unfold mul
  rw [show k.natAbs.log2 + 2 = (k.natAbs.log2 + 1) + 1 from rfl, mulLoop]
  by_cases h0 : k = 0
  · rw [if_pos h0]
  · rw [if_neg h0, if_neg (by omega)]
    simp only [dbl, if_true]
    exact mulLoop_inf _ _ _ _

/-- C56 is violated: public key octets whose second half is zero abort every device with an even
private key, on both curves — half of all private keys. -/
theorem C56_public_key_violated (c : Curve) (key pub : List Octet) (hk : fromSignedLe key % 2 = 0)
    (hp : fromSignedLe (pub.drop (pub.length / 2)) = 0) : sharedSecret c key pub = .panic := by
  unfold sharedSecret toPoint
  rw [hp, mul_zero_even c _ _ _ hk]
  rfl

/-- The hypotheses of `C56_public_key_violated` are met by the all-zero public key. -/
example : ValidKey 32 (smallKey 32 2) ∧ fromSignedLe (smallKey 32 2) % 2 = 0 ∧
    fromSignedLe ((List.replicate 64 (0 : Octet)).drop 32) = 0 ∧
    sharedSecret p256 (smallKey 32 2) (List.replicate 64 0) = .panic := by
  refine ⟨⟨rfl, by decide +kernel⟩, ?_, ?_, ?_⟩ <;> decide +kernel

/-- C56, for odd private keys: the same octets give the all-zero shared key, whatever the key. -/
example : sharedSecret p256 (smallKey 32 7) (List.replicate 64 0) = .ok (List.replicate 64 0) := by
  decide +kernel

end Verif.Ec
