import Verif.H4.Model
/-!
# What an H4 byte stream means

The framing of Bluetooth Core Vol 4 Part A (H4) and Part E 5.4, written down independently of the
parser: a type octet, a header that ends with a length field, a payload of that length.
-/

namespace Verif.H4

/-- An HCI packet as the host sees it. Field widths are those of Core Vol 4 Part E 5.4. -/
inductive Packet where
  /-- 16-bit opcode (two octets), parameters of at most 255 octets. -/
  | command (op0 op1 : UInt8) (payload : List UInt8)
  /-- handle and flags (two octets), data of at most 65535 octets. -/
  | acl (h0 h1 : UInt8) (payload : List UInt8)
  /-- handle and flags (two octets), data of at most 255 octets. -/
  | sco (h0 h1 : UInt8) (payload : List UInt8)
  /-- event code (one octet), parameters of at most 255 octets. -/
  | event (code : UInt8) (payload : List UInt8)
  /-- handle and flags (two octets), data of at most 4095 octets; `rfu` is the value of the four
  reserved bits above the 12-bit length. -/
  | iso (h0 h1 : UInt8) (rfu : Fin 16) (payload : List UInt8)

/-- The payload fits the packet's length field. -/
def Packet.WellFormed : Packet → Prop
  | .command _ _ d => d.length < 256
  | .acl _ _ d => d.length < 65536
  | .sco _ _ d => d.length < 256
  | .event _ d => d.length < 256
  | .iso _ _ _ d => d.length < 4096

/-- The octets of the packet after the type octet. -/
def Packet.bytes : Packet → List UInt8
  | .command a b d => [a, b, UInt8.ofNat d.length] ++ d
  | .acl a b d => [a, b, UInt8.ofNat (d.length % 256), UInt8.ofNat (d.length / 256)] ++ d
  | .sco a b d => [a, b, UInt8.ofNat d.length] ++ d
  | .event a d => [a, UInt8.ofNat d.length] ++ d
  | .iso a b r d =>
    [a, b, UInt8.ofNat (d.length % 256), UInt8.ofNat (d.length / 256 + 16 * r.val)] ++ d

/-- The type octet (Core Vol 4 Part A table 2.1) . -/
def Packet.typeOctet : Packet → UInt8
  | .command .. => 1
  | .acl .. => 2
  | .sco .. => 3
  | .event .. => 4
  | .iso .. => 5

/-- The callback that must be invoked. -/
def Packet.kind : Packet → Kind
  | .command .. => .command
  | .acl .. => .acl
  | .sco .. => .sco
  | .event .. => .event
  | .iso .. => .iso

/-- The wire form of a packet. -/
def Packet.encode (p : Packet) : List UInt8 := p.typeOctet :: p.bytes

/-- The wire form of a sequence of packets. -/
def encodeAll (ps : List Packet) : List UInt8 := (ps.map Packet.encode).flatten

/-- The HCI Reset command with its type octet. -/
def resetPattern : List UInt8 := [0x01, 0x03, 0x0c, 0x00]

end Verif.H4
