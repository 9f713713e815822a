/-!
# The framing of the test channel

Models `TestChannelTransport::OnCommandReady` and `SendResponse`
(/repo/model/setup/test_channel_transport.cc 46-113) over a non-blocking socket
(/repo/net/posix/posix_async_socket.cc 40-84). Log output is left out.
-/

namespace Verif.Test

/-- The bytes of a `std::string`. -/
abbrev Bytes := List UInt8

/-- The receiving side of a socket: the bytes that can be read now, and what arrives before each of the
following calls of `Recv`. -/
structure Sock where
  isOpen : Bool
  buffer : Bytes
  later : List Bytes
  deriving DecidableEq, Repr

/-- `PosixAsyncSocket::Recv` (posix_async_socket.cc 64-79): the bytes stored in the buffer of the caller. A closed
socket gives nothing; an empty one gives an error, which leaves the buffer of the caller unchanged as well. -/
def recv (n : Nat) (s : Sock) : Bytes × Sock :=
  if s.isOpen then
    ((s.buffer ++ s.later.headD []).take n, ⟨true, (s.buffer ++ s.later.headD []).drop n, s.later.tail⟩)
  else ([], s)

/-- Receiving into a variable `uint8_t x = 0` (lines 48-49, 73-74, 80-81). -/
def recvByte (s : Sock) : UInt8 × Sock := ((recv 1 s).1.headD 0, (recv 1 s).2)

/-- Receiving into a vector of `n` zeros (lines 54-56, 85-87). -/
def recvVector (n : Nat) (s : Sock) : Bytes × Sock :=
  ((recv n s).1 ++ List.replicate (n - (recv n s).1.length) 0, (recv n s).2)

/-- The loop over the arguments (lines 79-92). -/
def recvArgs : Nat → Sock → List Bytes × Sock
  | 0, s => ([], s)
  | n + 1, s =>
    match recvByte s with
    | (size, s) =>
      match recvVector size.toNat s with
      | (arg, s) =>
        match recvArgs n s with
        | (args, s) => (arg :: args, s)

/-- The bytes of an ASCII literal. -/
def ascii (s : String) : Bytes := s.toList.map (fun c => UInt8.ofNat c.toNat)

/-- `"CLOSE_TEST_CHANNEL"` (line 63). -/
def closeName : Bytes := ascii "CLOSE_TEST_CHANNEL"

/-- What one call of `OnCommandReady` does. -/
inductive Received where
  /-- The handler is called (line 94). -/
  | command (name : Bytes) (args : List Bytes)
  /-- The channel is closed (lines 63-68). -/
  | closed
  deriving DecidableEq, Repr

/-- `OnCommandReady` (lines 46-95). The socket is closed when the first byte cannot be read (line 52), but the
function goes on. -/
def onCommandReady (s : Sock) : Received × Sock :=
  match recv 1 s with
  | (b, s) =>
    match recvVector (b.headD 0).toNat (if b.length ≠ 1 then { s with isOpen := false } else s) with
    | (name, s) =>
      if name = closeName ∨ name = [] then (.closed, { s with isOpen := false })
      else
        match recvByte s with
        | (num, s) =>
          match recvArgs num.toNat s with
          | (args, s) => (.command name args, s)

/-- Several calls, as long as the channel is open. -/
def receiveMany : Nat → Sock → List Received × Sock
  | 0, s => ([], s)
  | n + 1, s =>
    match onCommandReady s with
    | (r, s) =>
      match receiveMany n s with
      | (rs, s) => (r :: rs, s)

/-- What `Send` can do with the bytes it is given. -/
inductive Write where
  | all
  /-- Fewer bytes than were given. -/
  | short (n : Nat)
  /-- -1 with `errno == EBADF`, for instance on a socket closed here. -/
  | badFd
  /-- -1 with another error, for instance `EPIPE` when the client is gone. -/
  | failed
  deriving DecidableEq, Repr

/-- The bytes that reach the client. -/
def Write.bytes (w : Write) (b : Bytes) : Bytes :=
  match w with
  | .all => b
  | .short n => b.take n
  | _ => []

/-- What happens to the process. -/
inductive Sent where
  | sent (bytes : Bytes)
  | aborted (bytes : Bytes)
  deriving DecidableEq, Repr

/-- The size field (lines 104-106). -/
def le32 (n : Nat) : Bytes := [UInt8.ofNat n, UInt8.ofNat (n / 2 ^ 8), UInt8.ofNat (n / 2 ^ 16), UInt8.ofNat (n / 2 ^ 24)]

/-- `SendResponse` (lines 97-118); the results of the two `Send` calls are given. -/
def sendResponse (response : Bytes) (w1 w2 : Write) : Sent :=
  match w1 with
  | .badFd => .sent []
  | .all =>
    match w2 with
    | .all => .sent (le32 (min response.length 0xffff) ++ response.take (min response.length 0xffff))
    | w => .aborted (le32 (min response.length 0xffff) ++ w.bytes (response.take (min response.length 0xffff)))
  | w => .aborted (w.bytes (le32 (min response.length 0xffff)))

end Verif.Test
