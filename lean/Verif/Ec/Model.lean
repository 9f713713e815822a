/-!
# Model of the elliptic curve arithmetic used by pairing (`rust/src/lmp/ec.rs`)

`BigInt` is modelled by `Int`: both are unbounded.  The operators that matter:

* `/` and `%` of `BigInt` truncate towards zero, so they are `Int.tdiv` and `Int.tmod`; in
  particular `a % p` has the sign of `a` and is *not* a canonical residue;
* `unwrap` on `None`, and a slice that is too short, panic: outcome `Res.panic`.

The two copies of each function for P-192 and P-256 differ only in the constants; they are one
function here, parameterised by the curve.
-/

namespace Verif.Ec

/-- An octet. -/
abbrev Octet := UInt8

/-- Outcome of a Rust function that may panic. -/
inductive Res (α : Type) where
  | ok (a : α)
  | panic
deriving DecidableEq, Repr

/-- Sequencing of computations that may panic. -/
def Res.bind {α β : Type} (x : Res α) (f : α → Res β) : Res β :=
  match x with
  | .ok a => f a
  | .panic => .panic

/-- The constants of a curve: `trait EllipticCurve`, ec.rs 191-203.  `A` is −3 for both curves and
is written out where it is used.  `keySize` is `PRIVATE_KEY_SIZE`; `PUBLIC_KEY_SIZE` is twice that
for both curves. -/
structure Curve where
  p : Int
  gx : Int
  gy : Int
  keySize : Nat
deriving DecidableEq, Repr

/-- `P192r1`, ec.rs 205-227. -/
def p192 : Curve where
  p := 0xfffffffffffffffffffffffffffffffeffffffffffffffff
  gx := 0x188da80eb03090f67cbf20eb43a18800f4ff0afd82ff1012
  gy := 0x07192b95ffc8da78631011ed6b24cdd573f977a11e794811
  keySize := 24

/-- `P256r1`, ec.rs 229-253. -/
def p256 : Curve where
  p := 0xffffffff00000001000000000000000000000000ffffffffffffffffffffffff
  gx := 0x6b17d1f2e12c4247f8bce6e563a440f277037d812deb33a0f4a13945d898c296
  gy := 0x4fe342e2fe1a7f9b8ee7eb4a7c0f9e162bce33576b315ececbb6406837bf51f5
  keySize := 32

/-- `enum Point`, ec.rs 256-260: a point in Jacobian coordinates. -/
inductive Pt where
  | inf
  | fin (x y z : Int)
deriving DecidableEq, Repr

/-- `Point::g`, ec.rs 281-286 (with `from_affine`, 277-279). -/
def base (c : Curve) : Pt := .fin c.gx c.gy 1

/-- `Point::double`, ec.rs 312-331. -/
def dbl (c : Curve) : Pt → Pt
  | .inf => .inf
  | .fin x y z =>
    if y = 0 then .inf
    else
      let s := 4 * x * y ^ 2
      let m := 3 * x ^ 2 + (-3) * z ^ 4
      let rx := m ^ 2 - 2 * s
      let ry := m * (s - rx) - 8 * y ^ 4
      let rz := 2 * y * z
      .fin (rx.tmod c.p) (ry.tmod c.p) (rz.tmod c.p)

/-- `Add for Point`, ec.rs 347-391. -/
def add (c : Curve) : Pt → Pt → Pt
  | .inf, q => q
  | .fin x y z, .inf => .fin x y z
  | .fin x1 y1 z1, .fin x2 y2 z2 =>
    let u1 := (x1 * z2 ^ 2).tmod c.p
    let u2 := (x2 * z1 ^ 2).tmod c.p
    let s1 := (y1 * z2 ^ 3).tmod c.p
    let s2 := (y2 * z1 ^ 3).tmod c.p
    if u1 = u2 then
      if s1 ≠ s2 then .inf else dbl c (.fin x1 y1 z1)
    else
      let h := u2 - u1
      let r := s2 - s1
      let h3 := (h ^ 3).tmod c.p
      let u1h2 := (u1 * h ^ 2).tmod c.p
      let x3 := r ^ 2 - h3 - 2 * u1h2
      let y3 := r * (u1h2 - x3) - s1 * h3
      let z3 := h * z1 * z2
      .fin (x3.tmod c.p) (y3.tmod c.p) (z3.tmod c.p)

/-- The loop of `Mul for Point`, ec.rs 405-412: `while !i.is_zero() { if i.is_odd() { result +=
addend }; addend = addend.double(); i /= 2 }`.  The first argument bounds the number of rounds; the
loop is called with more rounds than it can use (`mulLoop_fuel` in `Lemmas`). -/
def mulLoop (c : Curve) : Nat → Pt → Pt → Int → Pt
  | 0, result, _, _ => result
  | n + 1, result, addend, i =>
    if i = 0 then result
    else
      mulLoop c n (if i % 2 = 1 then add c result addend else result) (dbl c addend) (i.tdiv 2)

/-- `Mul for Point`, ec.rs 393-414. -/
def mul (c : Curve) (q : Pt) (k : Int) : Pt := mulLoop c (k.natAbs.log2 + 2) .inf q k

/-- The loop of `Integer::extended_gcd` (crate num-integer 0.1.45, used by `mod_inv`): the pairs
`r` and `s` of the crate's implementation; the second coefficient `t` is not used by the caller.
The first argument bounds the number of rounds as in `mulLoop`. -/
def egcdLoop : Nat → Int × Int → Int × Int → (Int × Int)
  | 0, r, s => (r.2, s.2)
  | n + 1, r, s =>
    if r.1 = 0 then (r.2, s.2)
    else
      let q := r.2.tdiv r.1
      egcdLoop n (r.2 - q * r.1, r.1) (s.2 - q * s.1, s.1)

/-- `extended_gcd(x, m)`: the greatest common divisor and the coefficient of `x`. -/
def egcd (x m : Int) : Int × Int :=
  let res := egcdLoop (m.natAbs + 1) (m, x) (0, 1)
  if 0 ≤ res.1 then res else (-res.1, -res.2)

/-- `mod_inv`, ec.rs 182-189. -/
def modInv (x m : Int) : Option Int :=
  let e := egcd x m
  if e.1 = 1 then some (e.2.tmod m) else none

/-- `Point::to_affine`, ec.rs 288-299: `None` for the point at infinity, a panic if `z` has no
inverse. -/
def toAffine (c : Curve) : Pt → Res (Option (Int × Int))
  | .inf => .ok none
  | .fin x y z =>
    match modInv z c.p with
    | none => .panic
    | some i => .ok (some ((x * i ^ 2).tmod c.p, (y * i ^ 3).tmod c.p))

/-- The value of octets as an unsigned number, least significant first. -/
def natOfLe : List Octet → Nat
  | [] => 0
  | b :: bs => b.toNat + 256 * natOfLe bs

/-- `BigInt::from_signed_bytes_le`: two's complement, least significant octet first, the sign being
the top bit of the last octet. -/
def fromSignedLe (bs : List Octet) : Int :=
  if 2 * natOfLe bs < 256 ^ bs.length then natOfLe bs
  else (natOfLe bs : Int) - 256 ^ bs.length

/-- The `n` low octets of a number, least significant first. -/
def leOfNat : Nat → Nat → List Octet
  | 0, _ => []
  | n + 1, v => UInt8.ofNat v :: leOfNat n (v / 256)

/-- The number of octets `BigInt::to_signed_bytes_le` uses for a number: the least number, at least
one, that holds it in two's complement.  (The bit length of `v` or of `-v-1`, plus a sign bit, in
octets.) -/
def signedLen (v : Int) : Nat :=
  let m := if 0 ≤ v then v.toNat else (-v - 1).toNat
  if m = 0 then 1 else (m.log2 + 1) / 8 + 1

/-- `BigInt::to_signed_bytes_le`: the shortest two's complement representation. -/
def toSignedLe (v : Int) : List Octet :=
  leOfNat (signedLen v) (v % 256 ^ signedLen v).toNat

/-- `Vec::resize(size, 0)`: cut, or pad with zero octets. -/
def resize (n : Nat) (bs : List Octet) : List Octet :=
  (bs ++ List.replicate (n - bs.length) 0).take n

/-- `Point::to_bytes`, ec.rs 301-310, followed by the `unwrap` of every caller (160, 175), which
panics on the point at infinity. -/
def toBytes (c : Curve) (q : Pt) : Res (List Octet) :=
  match toAffine c q with
  | .panic => .panic
  | .ok none => .panic
  | .ok (some (x, y)) => .ok (resize c.keySize (toSignedLe x) ++ resize c.keySize (toSignedLe y))

/-- `PrivateKey::generate_p192` and `generate_p256`, ec.rs 110-141, as a function of the random
octets they draw.  The key is stored in its octets; the assignment of the slice panics if the key
needs more octets than the array has. -/
def generate (c : Curve) (random : List Octet) : Res (List Octet) :=
  let key := fromSignedLe random
  let key := if key < 0 then -key else key
  let key := if key < 1 then 1 else key
  let buf := toSignedLe key
  if c.keySize < buf.length then .panic
  else .ok (resize c.keySize buf)

/-- `PrivateKey::derive`, ec.rs 155-167 (with `generate_public_key`, 269-271, and `to_bigint`,
151-153): the octets of the public key. -/
def derive (c : Curve) (key : List Octet) : Res (List Octet) :=
  toBytes c (mul c (base c) (fromSignedLe key))

/-- `PublicKey::to_point`, ec.rs 70-80: the two halves of the octets, read as signed numbers. -/
def toPoint (pub : List Octet) : Pt :=
  .fin (fromSignedLe (pub.take (pub.length / 2))) (fromSignedLe (pub.drop (pub.length / 2))) 1

/-- `PrivateKey::shared_secret`, ec.rs 168-180: the octets of the Diffie-Hellman key. -/
def sharedSecret (c : Curve) (key peer : List Octet) : Res (List Octet) :=
  toBytes c (mul c (toPoint peer) (fromSignedLe key))

end Verif.Ec
