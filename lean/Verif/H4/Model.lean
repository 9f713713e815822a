/-!
# H4 parser model

Models `/repo/model/hci/h4_parser.h` and `/repo/model/hci/h4_parser.cc`.
-/

namespace Verif.H4

/-- `H4Parser::State`, h4_parser.h:48. -/
inductive State where
  | type | preamble | payload | recovery
  deriving DecidableEq, Repr

/-- The callback that is invoked, h4_parser.cc:68-90. One constructor per callback. -/
inductive Kind where
  | command | acl | sco | event | iso
  deriving DecidableEq, Repr

/-- A callback invocation: which callback, with which bytes. -/
abbrev Event := Kind × List UInt8

/-- The data members of `H4Parser`, h4_parser.h:99-105. `hciType` is the raw enum value of
`hci_packet_type_` (`UNKNOWN` is 0); `packet_type_` itself is only written and logged and is kept
as `lastType`. `size_t` is modelled by `Nat`: every value stored in `wanted` is at most 65535. -/
structure Parser where
  state : State
  hciType : UInt8
  lastType : UInt8
  packet : List UInt8
  wanted : Nat
  recovery : Bool
  deriving DecidableEq, Repr

/-- Outcome of one call. `abort` is `FATAL`, `ub` an out-of-bounds access. `done` carries the
boolean result, the new state and the callbacks invoked during the call, in order. -/
inductive Outcome where
  | abort
  | ub
  | done (ret : Bool) (p : Parser) (events : List Event)
  deriving DecidableEq, Repr

/-- Initial member values (h4_parser.h:99-105) with the constructor argument (h4_parser.cc:58-66). -/
def init (recovery : Bool) : Parser :=
  { state := .type, hciType := 0, lastType := 0, packet := [], wanted := 0, recovery := recovery }

/-- `H4Parser::Reset`, h4_parser.cc:30-35 (does not touch `hci_packet_type_`). -/
def reset (p : Parser) : Parser :=
  { p with state := .type, packet := [], wanted := 0, lastType := 0 }

/-- The callback selected by `hci_packet_type_`, h4_parser.cc:68-87; `none` is the `FATAL` branch.
Enum values: `PacketType` in h4.h (COMMAND 1, ACL 2, SCO 3, EVENT 4, ISO 5). -/
def kindOf (t : UInt8) : Option Kind :=
  if t = 1 then some .command
  else if t = 2 then some .acl
  else if t = 3 then some .sco
  else if t = 4 then some .event
  else if t = 5 then some .iso
  else none

/-- `packet_length_offset`, h4_parser.cc:38-45 with the constants of h4_parser.h:71-89. -/
def lengthOffset : Kind → Nat
  | .command => 2
  | .acl => 2
  | .sco => 2
  | .event => 1
  | .iso => 2

/-- `preamble_size`, h4_parser.cc:113-120 with the constants of h4_parser.h:71-89. -/
def preambleSize : Kind → Nat
  | .command => 3
  | .acl => 4
  | .sco => 3
  | .event => 2
  | .iso => 4

/-- `H4Parser::HciGetPacketLengthForType`, h4_parser.cc:37-56. `none` is an out-of-bounds read of
the preamble. -/
def packetLength (k : Kind) (preamble : List UInt8) : Option Nat := do
  let offset := lengthOffset k
  let b0 ← preamble[offset]?
  let size := b0.toNat
  match k with
  | .acl =>
    let b1 ← preamble[offset + 1]?
    pure (size ||| (b1.toNat <<< 8))
  | .iso =>
    let b1 ← preamble[offset + 1]?
    pure (size ||| ((b1.toNat &&& 0x0f) <<< 8))
  | _ => pure size

/-- `H4Parser::BytesRequested`, h4_parser.cc:92-101. -/
def requested (p : Parser) : Nat :=
  match p.state with
  | .type | .recovery => 1
  | .preamble | .payload => p.wanted

/-- `OnPacketReady(); state_ = HCI_TYPE;`, h4_parser.cc:68-90, 185-186, 196-197. -/
def ready (p : Parser) : Outcome :=
  match kindOf p.hciType with
  | none => .abort
  | some k => .done true { p with hciType := 0, state := .type } [(k, p.packet)]

/-- The HCI Reset command looked for in recovery, h4_parser.cc:131. -/
def resetCommand : List UInt8 := [0x01, 0x03, 0x0c, 0x00]

/-- The two `HCI_TYPE` branches of `Consume`, h4_parser.cc:122-126 and 164-180. -/
def consumeType (p : Parser) (b : UInt8) : Outcome :=
  let p := { p with lastType := b, packet := [] }
  match kindOf b with
  | none =>
    if !p.recovery then .abort
    else .done true { p with state := .recovery, hciType := 1, wanted := 1 } []
  | some k =>
    .done true { p with state := .preamble, hciType := b, wanted := preambleSize k } []

/-- The two `HCI_RECOVERY` branches of `Consume`, h4_parser.cc:128-154 and 193-199. The reads
`packet_[offset]` and `reset_command[offset]` are bounds-checked: `reset_command` has four
entries, so an `offset` of four or more would be undefined behaviour. -/
def consumeRecovery (p : Parser) (b : UInt8) : Outcome :=
  let offset := p.packet.length
  let packet := p.packet ++ [b]
  match packet[offset]?, resetCommand[offset]? with
  | some x, some y =>
    let packet := if x ≠ y then (if b = 0x01 then [b] else []) else packet
    let p :=
      if packet.length = resetCommand.length then
        { p with packet := packet.drop 1, wanted := 0 }
      else { p with packet := packet }
    if p.wanted = 0 then ready p else .done true p []
  | _, _ => .ub

/-- The `HCI_PREAMBLE` branches of `Consume`, h4_parser.cc:156-160 and 181-192. -/
def consumePreamble (p : Parser) (buf : List UInt8) : Outcome :=
  let p := { p with packet := p.packet ++ buf, wanted := p.wanted - buf.length }
  if p.wanted = 0 then
    match kindOf p.hciType with
    | none => .ub
    | some k =>
      match packetLength k p.packet with
      | none => .ub
      | some n => if n = 0 then ready p else .done true { p with wanted := n, state := .payload } []
  else .done true p []

/-- The `HCI_PAYLOAD` branches of `Consume`, h4_parser.cc:156-160 and 193-199. -/
def consumePayload (p : Parser) (buf : List UInt8) : Outcome :=
  let p := { p with packet := p.packet ++ buf, wanted := p.wanted - buf.length }
  if p.wanted = 0 then ready p else .done true p []

/-- `H4Parser::Consume`, h4_parser.cc:103-202. `buf` holds the bytes read: an empty buffer stands
for `bytes_read <= 0`. -/
def consume (p : Parser) (buf : List UInt8) : Outcome :=
  match buf with
  | [] => .done false p []
  | b :: _ =>
    if buf.length > requested p then .abort
    else
      match p.state with
      | .type => consumeType p b
      | .recovery => consumeRecovery p b
      | .preamble => consumePreamble p buf
      | .payload => consumePayload p buf

/-- Feed successive reads to the parser, as `H4DataChannelPacketizer::OnDataReady` does
(h4_data_channel_packetizer.cc:62-92), collecting the callbacks. -/
def feed (p : Parser) : List (List UInt8) → Outcome
  | [] => .done true p []
  | c :: cs =>
    match consume p c with
    | .done _ p' ev =>
      match feed p' cs with
      | .done r p'' ev' => .done r p'' (ev ++ ev')
      | o => o
    | o => o

/-- A sequence of reads a transport may deliver: every read is non-empty and no longer than what
the parser requests at that moment. -/
def Respects (p : Parser) : List (List UInt8) → Prop
  | [] => True
  | c :: cs =>
    c ≠ [] ∧ c.length ≤ requested p ∧
      ∀ r p' ev, consume p c = .done r p' ev → Respects p' cs

end Verif.H4
