import Verif.Sock.Model
/-! # The framing C15 talks about -/

namespace Verif.Sock

/-- A packet preceded by its length, 32 bits little endian. -/
def frame (p : Bytes) : Bytes :=
  [UInt8.ofNat (p.length % 256), UInt8.ofNat (p.length / 256 % 256), UInt8.ofNat (p.length / 65536 % 256),
    UInt8.ofNat (p.length / 16777216 % 256)] ++ p

/-- Link-layer packets are not empty (they start with a type octet) and fit the length field. -/
def Valid (p : Bytes) : Prop := p ≠ [] ∧ p.length < 2 ^ 32

/-- The read of a length finds nothing or the whole length. -/
def Whole : Avail × Avail → Prop
  | (.data k, _) => k = 0 ∨ 4 ≤ k
  | (.eof, _) => False

/-- The peer does not close. -/
def NoEof (a : Avail × Avail) : Prop := a.1 ≠ .eof ∧ a.2 ≠ .eof

end Verif.Sock
