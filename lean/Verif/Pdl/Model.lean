/-!
# Packets

The packets of the files packets/hci_packets.pdl, packets/link_layer_packets.pdl, packets/bredr_bb_packets.pdl,
rust/lmp_packets.pdl and rust/llcp_packets.pdl. The files are in the packet description language PDL; a compiler outside of
the repository (third_party/pdl, empty here) generates from them the builders (`Create`, `SerializeToBytes`) and the views
(`Create`, `IsValid`, getters) that all other code uses. `Layouts*.lean` has the declarations of the files, translated by
tools/gen_pdl.py; this file has the meaning of the declarations, for little endian files (`little_endian_packets`).

Simplifications.
* A packet is a list of bits, the least significant bit of each octet first. In a little endian file the fields follow each
  other without gaps in this order.
* A field with an enumeration type is a number of its width; enumerators are not checked.
* Octets after the end of a packet are ignored.
-/
namespace Verif.Pdl

/-- Where an array or a payload ends: `T[n]`; `_count_(x)` and `_size_(x)` (in octets) given by the length field with the
number; or where the packet ends. -/
inductive Bound
  | const (n : Nat)
  | count (i : Nat)
  | size (i : Nat)
  | rest
  deriving DecidableEq, Repr

/-- The body of a packet or structure: a list of fields. -/
inductive Fmt
  /-- the end -/
  | done
  /-- `x : w`, or an enumeration or custom field of this width -/
  | uint (w : Nat) (k : Fmt)
  /-- `_fixed_ = v : w` -/
  | fixed (w v : Nat) (k : Fmt)
  /-- `_reserved_ : w` -/
  | reserved (w : Nat) (k : Fmt)
  /-- `_size_(x) : w` or `_count_(x) : w`; arrays refer to it by the number -/
  | len (i w : Nat) (k : Fmt)
  /-- `x : T[]`, followed by `_padding_[pad]` unless `pad` is 0 -/
  | array (elem : Fmt) (b : Bound) (pad : Nat) (k : Fmt)
  /-- `x : T` for a structure -/
  | group (s : Fmt) (k : Fmt)
  /-- `_payload_` or `_body_` -/
  | payload (b : Bound) (k : Fmt)
  deriving DecidableEq, Repr

/-- The values of the fields. The payload is not among them. -/
def Fmt.T : Fmt → Type
  | .done => Unit
  | .uint _ k => Nat × k.T
  | .fixed _ _ k => k.T
  | .reserved _ k => k.T
  | .len _ _ k => k.T
  | .array e _ _ k => List e.T × k.T
  | .group s k => s.T × k.T
  | .payload _ k => k.T

/-- The lowest `w` bits of a number, the least significant one first. -/
def bits : Nat → Nat → List Bool
  | 0, _ => []
  | w + 1, n => (n % 2 == 1) :: bits w (n / 2)

/-- The number with these bits. -/
def num : List Bool → Nat
  | [] => 0
  | b :: bs => b.toNat + 2 * num bs

/-- `_padding_[n]`. -/
def padTo (n : Nat) (l : List Bool) : List Bool := l ++ List.replicate (8 * n - l.length) false


mutual
/-- `SerializeToBytes`: the bits of a body with these values and this payload. -/
def enc : (f : Fmt) → f.T → List Bool → List Bool
  | .done, _, _ => []
  | .uint w k, (n, v), pl => bits w n ++ enc k v pl
  | .fixed w c k, v, pl => bits w c ++ enc k v pl
  | .reserved w k, v, pl => bits w 0 ++ enc k v pl
  | .len i w k, v, pl => bits w (lenOf k i v pl) ++ enc k v pl
  | .array e _ pad k, (xs, v), pl => padTo pad (xs.flatMap (fun x => enc e x [])) ++ enc k v pl
  | .group s k, (u, v), pl => enc s u [] ++ enc k v pl
  | .payload _ k, v, pl => pl ++ enc k v pl
/-- The number that the builder writes to the length field `i`, given what follows this field. -/
def lenOf : (f : Fmt) → (i : Nat) → f.T → List Bool → Nat
  | .done, _, _, _ => 0
  | .uint _ k, i, (_, v), pl => lenOf k i v pl
  | .fixed _ _ k, i, v, pl => lenOf k i v pl
  | .reserved _ k, i, v, pl => lenOf k i v pl
  | .len _ _ k, i, v, pl => lenOf k i v pl
  | .array e b _ k, i, (xs, v), pl =>
    if b = .count i then xs.length
    else if b = .size i then (xs.flatMap (fun x => enc e x [])).length / 8
    else lenOf k i v pl
  | .group _ k, i, (_, v), pl => lenOf k i v pl
  | .payload b k, i, v, pl => if b = .size i then pl.length / 8 else lenOf k i v pl
end

/-- The first `n` bits and the others, if there are as many. -/
def takeBits (n : Nat) (bs : List Bool) : Option (List Bool × List Bool) :=
  if bs.length < n then none else some (bs.take n, bs.drop n)

/-- A number of elements. -/
def repeatDec {α : Type} (d : List Bool → Option (α × List Bool)) : Nat → List Bool → Option (List α × List Bool)
  | 0, bs => some ([], bs)
  | n + 1, bs => match d bs with
    | none => none
    | some (x, r) => match repeatDec d n r with
      | none => none
      | some (xs, r') => some (x :: xs, r')

/-- Elements until nothing is left. The first argument is an upper bound of their number: no element is empty. -/
def allDec {α : Type} (d : List Bool → Option (α × List Bool)) : Nat → List Bool → Option (List α)
  | _, [] => some []
  | 0, _ :: _ => none
  | n + 1, b :: bs => match d (b :: bs) with
    | none => none
    | some (x, r) => match allDec d n r with
      | none => none
      | some xs => some (x :: xs)

/-- The elements of an array, and what follows. -/
def arrayDec {α : Type} (d : List Bool → Option (α × List Bool)) (env : Nat → Nat) (b : Bound) (bs : List Bool) :
    Option (List α × List Bool) := match b with
  | .const n => repeatDec d n bs
  | .count i => repeatDec d (env i) bs
  | .size i => match takeBits (8 * env i) bs with
    | none => none
    | some (a, r) => match allDec d a.length a with
      | none => none
      | some xs => some (xs, r)
  | .rest => match allDec d bs.length bs with
    | none => none
    | some xs => some (xs, [])

/-- The same for an array with padding. -/
def paddedDec {α : Type} (d : List Bool → Option (α × List Bool)) (env : Nat → Nat) (b : Bound) (pad : Nat)
    (bs : List Bool) : Option (List α × List Bool) :=
  if pad = 0 then arrayDec d env b bs
  else match takeBits (8 * pad) bs with
    | none => none
    | some (a, r) => match arrayDec d env b a with
      | none => none
      | some (xs, _) => some (xs, r)

/-- The payload, and what follows. -/
def payloadDec (env : Nat → Nat) (b : Bound) (bs : List Bool) : Option (List Bool × List Bool) := match b with
  | .size i => takeBits (8 * env i) bs
  | .rest => some (bs, [])
  | _ => none

/-- An element has no payload. -/
def element {α : Type} : Option (α × List Bool × List Bool) → Option (α × List Bool)
  | none => none
  | some (v, _, r) => some (v, r)

/-- `View::Create`: the values of the fields, the payload, and the bits that follow; nothing if the view is not valid. `env` has
the length fields read so far, `p` the payload read so far. -/
def dec : (f : Fmt) → (env : Nat → Nat) → (p : List Bool) → List Bool → Option (f.T × List Bool × List Bool)
  | .done, _, p, bs => some ((), p, bs)
  | .uint w k, env, p, bs => match takeBits w bs with
    | none => none
    | some (a, r) => match dec k env p r with
      | none => none
      | some (v, q, r') => some ((num a, v), q, r')
  | .fixed w c k, env, p, bs => match takeBits w bs with
    | none => none
    | some (a, r) => if num a = c then dec k env p r else none
  | .reserved w k, env, p, bs => match takeBits w bs with
    | none => none
    | some (_, r) => dec k env p r
  | .len i w k, env, p, bs => match takeBits w bs with
    | none => none
    | some (a, r) => dec k (fun j => if j = i then num a else env j) p r
  | .array e b pad k, env, p, bs =>
    match paddedDec (fun l => element (dec e (fun _ => 0) [] l)) env b pad bs with
    | none => none
    | some (xs, r) => match dec k env p r with
      | none => none
      | some (v, q, r') => some ((xs, v), q, r')
  | .group s k, env, p, bs => match dec s (fun _ => 0) [] bs with
    | none => none
    | some (u, _, r) => match dec k env p r with
      | none => none
      | some (v, q, r') => some ((u, v), q, r')
  | .payload b k, env, _, bs => match payloadDec env b bs with
    | none => none
    | some (a, r) => dec k env a r

/-- The value of the field with this number, counting the fields that are numbers. -/
def field : (f : Fmt) → Nat → f.T → Option Nat
  | .done, _, _ => none
  | .uint _ _, 0, (n, _) => some n
  | .uint _ k, j + 1, (_, v) => field k j v
  | .fixed _ _ k, j, v => field k j v
  | .reserved _ k, j, v => field k j v
  | .len _ _ k, j, v => field k j v
  | .array _ _ _ k, j, (_, v) => field k j v
  | .group _ k, j, (_, v) => field k j v
  | .payload _ k, j, v => field k j v

/-- A level of a packet: its body, and the conditions `(f = c, ...)` that the packet derived from it puts on its fields. -/
structure Level where
  body : Fmt
  cond : List (Nat × Nat)
  deriving DecidableEq, Repr

/-- A packet: its bodies, from the outermost packet to itself. -/
structure Packet where
  name : String
  levels : List Level

/-- The values of all fields of a packet. -/
def Vals : List Level → Type
  | [] => Unit
  | l :: ls => l.body.T × Vals ls

/-- The conditions hold. -/
def meets (f : Fmt) (v : f.T) (cond : List (Nat × Nat)) : Bool := cond.all (fun c => field f c.1 v == some c.2)

/-- The builder of a packet: the body of the derived packet is the payload of its parent. -/
def encAll : (ls : List Level) → Vals ls → List Bool → List Bool
  | [], _, pl => pl
  | l :: ls, (v, vs), pl => enc l.body v (encAll ls vs pl)

/-- The view of a packet, created from the view of its parent: the parent is valid, the conditions hold, and the payload of the
parent is valid as the body. -/
def decAll : (ls : List Level) → List Bool → Option (Vals ls × List Bool)
  | [], bs => some ((), bs)
  | l :: ls, bs => match dec l.body (fun _ => 0) [] bs with
    | none => none
    | some (v, p, _) =>
      if meets l.body v l.cond then
        match decAll ls p with
        | none => none
        | some (vs, q) => some ((v, vs), q)
      else none

/-- The octets of a list of bits. -/
def octets : List Bool → List Nat
  | a :: b :: c :: d :: e :: f :: g :: h :: r => num [a, b, c, d, e, f, g, h] :: octets r
  | _ => []

/-- The bits of a list of octets. -/
def unpack (l : List Nat) : List Bool := l.flatMap (bits 8)

/-- The octets of a packet with these values and this payload. -/
def serialize (p : Packet) (v : Vals p.levels) (pl : List Nat) : List Nat := octets (encAll p.levels v (unpack pl))

/-- The values and the payload read from octets; nothing if they are not such a packet. -/
def parse (p : Packet) (l : List Nat) : Option (Vals p.levels × List Nat) := match decAll p.levels (unpack l) with
  | none => none
  | some (v, q) => some (v, octets q)

end Verif.Pdl
