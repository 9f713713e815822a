import Verif.Pdl.Model
/-!
# What can be put in a packet

A value fits a packet if every number fits the bits of its field, every array of fixed length has this length, and the length
fields can hold the number of elements or octets they stand for.
-/
namespace Verif.Pdl

/-- The number of bits of a body with a payload of `n` bits. -/
def width : (f : Fmt) → f.T → Nat → Nat
  | .done, _, _ => 0
  | .uint w k, (_, v), n => w + width k v n
  | .fixed w _ k, v, n => w + width k v n
  | .reserved w k, v, n => w + width k v n
  | .len _ w k, v, n => w + width k v n
  | .array e _ pad k, (xs, v), n => max (xs.map (fun x => width e x 0)).sum (8 * pad) + width k v n
  | .group s k, (u, v), n => width s u 0 + width k v n
  | .payload _ k, v, n => n + width k v n

/-- The number that the length field `i` stands for: the number of elements, or octets, of the array or payload after it that
refers to it. -/
def announced : (f : Fmt) → (i : Nat) → f.T → Nat → Nat
  | .done, _, _, _ => 0
  | .uint _ k, i, (_, v), n => announced k i v n
  | .fixed _ _ k, i, v, n => announced k i v n
  | .reserved _ k, i, v, n => announced k i v n
  | .len _ _ k, i, v, n => announced k i v n
  | .array e b _ k, i, (xs, v), n =>
    if b = .count i then xs.length
    else if b = .size i then (xs.map (fun x => width e x 0)).sum / 8
    else announced k i v n
  | .group _ k, i, (_, v), n => announced k i v n
  | .payload b k, i, v, n => if b = .size i then n / 8 else announced k i v n

/-- The values of a body fit. -/
def fits : (f : Fmt) → f.T → Nat → Bool
  | .done, _, _ => true
  | .uint w k, (x, v), n => x < 2 ^ w && fits k v n
  | .fixed _ _ k, v, n => fits k v n
  | .reserved _ k, v, n => fits k v n
  | .len i w k, v, n => announced k i v n < 2 ^ w && fits k v n
  | .array e b pad k, (xs, v), n =>
    xs.all (fun x => fits e x 0)
    && (match b with | .const m => xs.length == m | _ => true)
    && (pad == 0 || (xs.map (fun x => width e x 0)).sum ≤ 8 * pad)
    && fits k v n
  | .group s k, (u, v), n => fits s u 0 && fits k v n
  | .payload _ k, v, n => fits k v n

/-- A body has room for a payload. -/
def room : Fmt → Bool
  | .done => false
  | .uint _ k => room k
  | .fixed _ _ k => room k
  | .reserved _ k => room k
  | .len _ _ k => room k
  | .array _ _ _ k => room k
  | .group _ k => room k
  | .payload _ _ => true

/-- The number of bits of a packet with a payload of `n` octets. -/
def packetWidth : (ls : List Level) → Vals ls → Nat → Nat
  | [], _, n => 8 * n
  | l :: ls, (v, vs), n => width l.body v (packetWidth ls vs n)

/-- The values of all bodies of a packet fit, and those that tell the packet from others are as declared. -/
def fitsAll : (ls : List Level) → Vals ls → Nat → Bool
  | [], _, _ => true
  | l :: ls, (v, vs), n => fits l.body v (packetWidth ls vs n) && l.cond.all (fun c => field l.body c.1 v == some c.2)
    && fitsAll ls vs n

/-- The values and the payload (octets; none if there is no room for it) can be put in the packet. -/
def Packet.legal (p : Packet) (v : Vals p.levels) (pl : List Nat) : Bool :=
  fitsAll p.levels v pl.length && pl.all (· < 256) &&
    (pl.isEmpty || (match p.levels.getLast? with | none => false | some l => room l.body))

/-- The numbers of a body are in the range of their fields and its arrays have the declared lengths. -/
def inRange : (f : Fmt) → f.T → Bool
  | .done, _ => true
  | .uint w k, (x, v) => x < 2 ^ w && inRange k v
  | .fixed _ _ k, v => inRange k v
  | .reserved _ k, v => inRange k v
  | .len _ _ k, v => inRange k v
  | .array e b _ k, (xs, v) => xs.all (fun x => inRange e x)
    && (match b with | .const m => xs.length == m | _ => true) && inRange k v
  | .group s k, (u, v) => inRange s u && inRange k v
  | .payload _ k, v => inRange k v

/-- The numbers of a packet are in range, and those that tell the packet from others are as declared. -/
def inRangeAll : (ls : List Level) → Vals ls → Bool
  | [], _ => true
  | l :: ls, (v, vs) => inRange l.body v && l.cond.all (fun c => field l.body c.1 v == some c.2) && inRangeAll ls vs

/-- A body whose arrays all have a fixed length. -/
def rigid : Fmt → Bool
  | .done => true
  | .uint _ k => rigid k
  | .fixed _ _ k => rigid k
  | .reserved _ k => rigid k
  | .len _ _ k => rigid k
  | .array e b pad k => (match b with | .const _ => true | _ => false) && pad == 0 && rigid e && rigid k
  | .group s k => rigid s && rigid k
  | .payload _ k => rigid k

/-- A packet of fixed size: it has no array of variable length, and no payload of its own. -/
def Packet.fixedSize (p : Packet) : Bool :=
  p.levels.all (fun l => rigid l.body) && (match p.levels.getLast? with | none => false | some l => !room l.body)

/-- A body without reserved bits and padding. -/
def plain : Fmt → Bool
  | .done => true
  | .uint _ k => plain k
  | .fixed _ _ k => plain k
  | .reserved _ _ => false
  | .len _ _ k => plain k
  | .array e _ pad k => plain e && pad == 0 && plain k
  | .group s k => plain s && plain k
  | .payload _ k => plain k

/-- A packet without reserved bits and padding. -/
def Packet.plain (p : Packet) : Bool := p.levels.all (fun l => Pdl.plain l.body)

/-- The second packet is derived from the first: it has the bodies of the first, with the same conditions, and more of either. -/
def derives : List Level → List Level → Bool
  | [l], m :: ms => l.body == m.body && l.cond.all (fun c => m.cond.contains c)
    && !(ms.isEmpty && m.cond.all (fun c => l.cond.contains c))
  | l :: ls, m :: ms => l == m && derives ls ms
  | _, _ => false

end Verif.Pdl
