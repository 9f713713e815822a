/-!
# Link-layer packets over a socket

Models `/repo/model/devices/link_layer_socket_device.cc` and the results of `PosixAsyncSocket::Recv` and `Send`
(`/repo/net/posix/posix_async_socket.cc:66-105`) it depends on.

A read is described by what the kernel has at that moment. Writing outside of a buffer is the outcome `overrun`.
Allocation failure for large announced sizes is not modelled.
-/

namespace Verif.Sock

abbrev Bytes := List UInt8

/-- What a `read` finds: `data k`, at least the next `k` bytes of the stream have arrived (`k = 0` gives -1 with
EAGAIN); `eof`, the peer has closed and `read` returns 0. -/
inductive Avail where
  | data (k : Nat)
  | eof
  deriving DecidableEq, Repr

/-- `LinkLayerSocketDevice`, link_layer_socket_device.h:56-63, with the bytes of the stream not read yet and the packets
handed to `SendLinkLayerPacket`. -/
structure Dev where
  receivingSize : Bool
  bytesLeft : Nat
  offset : Nat
  size : Bytes
  received : Bytes
  stream : Bytes
  delivered : List Bytes
  closed : Bool
  deriving DecidableEq, Repr

/-- The state after construction, link_layer_socket_device.cc:36-40, h:58-60. -/
def Dev.init (stream : Bytes) : Dev := ⟨true, 4, 0, [0, 0, 0, 0], [], stream, [], false⟩

/-- The result of `Recv(buffer + offset, n)`: `again` is -1 with EAGAIN, `closed` is 0 (or -1 with another error),
`got bytes rest` a positive result. `read` of zero bytes returns 0, and `errno` has been set to 0 before. -/
inductive Recv where
  | again
  | closed
  | got (bytes rest : Bytes)

/-- `PosixAsyncSocket::Recv`, posix_async_socket.cc:66-81. -/
def recv (stream : Bytes) (n : Nat) : Avail → Recv
  | .eof => .closed
  | .data k =>
    if n = 0 then .closed
    else if (stream.take (min n k)).isEmpty then .again
    else .got (stream.take (min n k)) (stream.drop (min n k))

/-- Writing `bytes` at `offset` of a buffer; `none` if they do not fit. -/
def write (buf : Bytes) (offset : Nat) (bytes : Bytes) : Option Bytes :=
  if offset + bytes.length ≤ buf.length then
    some (buf.take offset ++ bytes ++ buf.drop (offset + bytes.length))
  else none

/-- `slice::read_le<uint32_t>`. -/
def le32 : Bytes → Nat
  | [a, b, c, d] => a.toNat + 256 * b.toNat + 65536 * c.toNat + 16777216 * d.toNat
  | _ => 0

/-- The second half of `Tick`, link_layer_socket_device.cc:67-87. -/
def tickBody (s : Dev) (a : Avail) : Option Dev :=
  match recv s.stream s.bytesLeft a with
  | .again => some s
  | .closed => some { s with closed := true }
  | .got bytes rest =>
    match write s.received s.offset bytes with
    | none => none
    | some buf =>
      if bytes.length < s.bytesLeft then
        some { s with received := buf, stream := rest, bytesLeft := s.bytesLeft - bytes.length, offset := s.offset + bytes.length }
      else
        some { s with received := buf, stream := rest, bytesLeft := 4, offset := 0, receivingSize := true, delivered := s.delivered ++ [buf] }

/-- `LinkLayerSocketDevice::Tick`, link_layer_socket_device.cc:43-87; `a1` is found by the first `Recv`, `a2` by the
second. The number of bytes requested for the size is always `kSizeBytes`, whatever `offset_` is. Ticks of a closed
device are not made (it is removed from the phy). `none` is a write out of bounds. -/
def tick (s : Dev) (a1 a2 : Avail) : Option Dev :=
  if s.closed then some s
  else if s.receivingSize then
    match recv s.stream 4 a1 with
    | .again => some s
    | .closed => some { s with closed := true }
    | .got bytes rest =>
      match write s.size s.offset bytes with
      | none => none
      | some buf =>
        if bytes.length < s.bytesLeft then
          some { s with size := buf, stream := rest, bytesLeft := s.bytesLeft - bytes.length, offset := s.offset + bytes.length }
        else
          tickBody { s with size := buf, stream := rest, bytesLeft := le32 buf, received := List.replicate (le32 buf) 0, offset := 0, receivingSize := false } a2
  else tickBody s a2

/-- A sequence of ticks. -/
def run (s : Dev) : List (Avail × Avail) → Option Dev
  | [] => some s
  | (a1, a2) :: as => (tick s a1 a2).bind (fun s' => run s' as)

/-- `Builder::write_le<uint32_t>`: the low 32 bits. -/
def put32 (n : Nat) : Bytes :=
  [UInt8.ofNat n, UInt8.ofNat (n / 256), UInt8.ofNat (n / 65536), UInt8.ofNat (n / 16777216)]

/-- `LinkLayerSocketDevice::ReceiveLinkLayerPacket`, link_layer_socket_device.cc:96-105: the bytes put on the socket
when the two `Send` calls accept `w1` and `w2` bytes. -/
def sendPacket (p : Bytes) (w1 w2 : Nat) : Bytes :=
  if 4 ≤ w1 then put32 p.length ++ p.take w2 else (put32 p.length).take w1

end Verif.Sock
