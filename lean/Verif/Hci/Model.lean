import Verif.Hci.Table
/-!
# Handling of HCI commands

Models `DualModeController::HandleCommand` and the command handlers
(model/controller/dual_mode_controller.cc 199-263 and 319-3562) as far as the host sees them: which events
answer a command, and whether the controller stops.

Simplifications.
* Whether the payload of a command has the format of its opcode (packets/hci_packets.pdl) is a flag of the
  command, `formed`. Getters of the views are not modelled.
* What the conditions in the handlers test is not modelled: each branch may be taken (`Run` is a relation).
  `Verif.Br`, `Verif.Le`, `Verif.Iso`, … model what the controllers do with the commands.
* An `OpCode` is a number below 2^16.
* An event is its kind and its opcode or event code. `lm` and `ll`: the command is passed to the link manager
  or to the link layer, which answer it (`Verif.Lmp`, C35; `Verif.Iso`).
-/
namespace Verif.Hci

/-- A command packet. -/
structure Cmd where
  op : Nat
  payload : List UInt8
  formed : Bool
  deriving DecidableEq, Repr

/-- What leaves the controller. -/
inductive Ev
  | complete (op : Nat)
  | status (op : Nat)
  | event (code : Nat)
  | hardwareError (code : Nat)
  | loopback
  | vendor (payload : List UInt8)
  | later
  | lm
  | ll
  deriving DecidableEq, Repr

/-- How the handling ends. `invalid`: after `invalid_packet_handler_` was called; the handler a controller has
from the start stops the program (dual_mode_controller.cc 112-115), the one of ffi.cc 78 does not. `crash`: a
`FATAL`, a failed `ASSERT` or an access outside an array. -/
inductive End
  | done
  | invalid
  | crash
  deriving DecidableEq, Repr

/-- The members of `ControllerProperties` HandleCommand reads. `bytes` is `supported_commands`. -/
structure Cfg where
  strict : Bool
  bytes : List Nat
  errorBeforeReset : Bool
  csr : Bool
  deriving DecidableEq, Repr

/-- `loopback_mode_ == ENABLE_LOCAL` and `controller_reset_`, dual_mode_controller.h 626-637. -/
structure St where
  loopback : Bool
  wasReset : Bool
  deriving DecidableEq, Repr

/-- The state after construction. -/
def St.fresh : St := ⟨false, false⟩

/-! ## The CSR vendor command -/

/-- The outcome of CsrVendorCommand. -/
inductive CsrOut
  | unknown
  | answer (payload : List UInt8)
  | crash
  deriving DecidableEq, Repr

/-- `(uint16_t)p[i] | ((uint16_t)p[i + 1] << 8)`. -/
def le16 (p : List UInt8) (i : Nat) : Nat := (p.getD i 0).toNat + 256 * (p.getD (i + 1) 0).toNat

/-- The label `complete`, dual_mode_controller.cc 3217-3222: a write outside the vector if there are fewer than
three parameters. -/
def csrComplete (p : List UInt8) : CsrOut :=
  if p.length < 3 then .crash else .answer ((p.set 1 1).set 2 0)

/-- CsrReadVarid, dual_mode_controller.cc 3225-3238. -/
def readVarid (varid : Nat) (v : List UInt8) : Option (List UInt8) :=
  if varid = 0x2819 then (if v.length < 2 then none else some ((v.set 0 0xe8).set 1 0x30)) else some v

/-- CsrReadPskey, dual_mode_controller.cc 3245-3268. -/
def readPskey (key : Nat) (v : List UInt8) : Option (List UInt8) :=
  if key = 0x00da then (if v = [] then none else some (v.set 0 7))
  else if key = 0x00db then (if v = [] then none else some (v.set 0 16))
  else if key = 0x010d then (if v.length < 2 then none else some ((v.set 0 0x08).set 1 0x08))
  else some v

/-- CsrWritePskey, dual_mode_controller.cc 3270-3285: whether it does not abort. The features it sets are not
kept. -/
def writePskey (key : Nat) (v : List UInt8) : Bool := !(key = 0x00ef && v.length < 8)

/-- The value is copied back into the parameters. -/
def splice (p : List UInt8) (i : Nat) (v : List UInt8) : List UInt8 := p.take i ++ v ++ p.drop (i + v.length)

/-- CsrVendorCommand, dual_mode_controller.cc 3126-3223. `2 * (length - 5)` is computed as an `int` and stored
in 16 bits. -/
def csr (supported : Bool) (p : List UInt8) : CsrOut :=
  if supported = false then .unknown
  else if p = [] then csrComplete p
  else if p.getD 0 0 ≠ 0xc2 ∨ p.length < 11 then csrComplete p
  else if p.length < 11 + 2 * (le16 p 3 + 65536 - 5) % 65536 ∨
      (le16 p 7 = 0x7003 ∧ 2 * (le16 p 3 + 65536 - 5) % 65536 < 6) then csrComplete p
  else if le16 p 7 = 0x7003 then
    if p.length < 17 + 2 * le16 p 13 % 65536 then csrComplete p
    else if le16 p 1 = 0 then
      match readPskey (le16 p 11) ((p.drop 17).take (2 * le16 p 13 % 65536)) with
      | none => .crash
      | some v => csrComplete (splice p 17 v)
    else if writePskey (le16 p 11) ((p.drop 17).take (2 * le16 p 13 % 65536)) then csrComplete p
    else .crash
  else if le16 p 1 = 0 then
    match readVarid (le16 p 7) ((p.drop 11).take (2 * (le16 p 3 + 65536 - 5) % 65536)) with
    | none => .crash
    | some v => csrComplete (splice p 11 v)
  else csrComplete p

/-! ## Handlers -/

/-- How the statements of a handler run: what is sent, and how it ends. `fell`: the end of the statements is
reached without a `return`. -/
inductive Flow
  | fell
  | returned
  | over (e : End)
  deriving DecidableEq, Repr

/-- The statements of a handler. CHECK_PACKET_VIEW is dual_mode_controller.h 602-614. ForwardToLm
(bredr_controller.cc 2092-2095) and ForwardToLl (le_controller.cc 6354-6357) assert that the command was taken:
the link manager fails for a command it has no answer for (rust/src/lmp/manager.rs 238-251), the link layer for
a command it does not know, and both if the payload does not have the format. -/
inductive Run (c : Cfg) (m : Cmd) : List Stmt → List Ev → Flow → Prop
  | nil : Run c m [] [] .fell
  | check {o l ev f} : m.formed = true → o = m.op → Run c m l ev f → Run c m (.check o :: l) ev f
  | refused {o l} : ¬(m.formed = true ∧ o = m.op) → Run c m (.check o :: l) [.hardwareError 0x43] (.over .invalid)
  | complete {o l ev f} : Run c m l ev f → Run c m (.complete o :: l) (.complete o :: ev) f
  | status {o l ev f} : Run c m l ev f → Run c m (.status o :: l) (.status o :: ev) f
  | event {k l ev f} : Run c m l ev f → Run c m (.event k :: l) (.event k :: ev) f
  | later {l ev f} : Run c m l ev f → Run c m (.later :: l) (.later :: ev) f
  | toLm {l ev f} : m.formed = true → m.op ∈ lmCommands → Run c m l ev f → Run c m (.toLm :: l) (.lm :: ev) f
  | toLmFails {l} : ¬(m.formed = true ∧ m.op ∈ lmCommands) → Run c m (.toLm :: l) [] (.over .crash)
  | toLl {l ev f} : m.formed = true → m.op ∈ llCommands → Run c m l ev f → Run c m (.toLl :: l) (.ll :: ev) f
  | toLlFails {l} : ¬(m.formed = true ∧ m.op ∈ llCommands) → Run c m (.toLl :: l) [] (.over .crash)
  | invalid {l} : Run c m (.invalid :: l) [] (.over .invalid)
  | fatal {l} : Run c m (.fatal :: l) [] (.over .crash)
  | csrUnknown {l ev f} : csr c.csr m.payload = .unknown → Run c m l ev f → Run c m (.csr :: l) (.complete m.op :: ev) f
  | csrAnswer {l ev f p} : csr c.csr m.payload = .answer p → Run c m l ev f → Run c m (.csr :: l) (.vendor p :: ev) f
  | csrCrash {l} : csr c.csr m.payload = .crash → Run c m (.csr :: l) [] (.over .crash)
  | ret {l} : Run c m (.ret :: l) [] .returned
  | left {a b l e1 e2 f} : Run c m a e1 .fell → Run c m l e2 f → Run c m (.ite a b :: l) (e1 ++ e2) f
  | leftOut {a b l ev f} : Run c m a ev f → f ≠ .fell → Run c m (.ite a b :: l) ev f
  | right {a b l e1 e2 f} : Run c m b e1 .fell → Run c m l e2 f → Run c m (.ite a b :: l) (e1 ++ e2) f
  | rightOut {a b l ev f} : Run c m b ev f → f ≠ .fell → Run c m (.ite a b :: l) ev f
  | skip {a l ev f} : Run c m l ev f → Run c m (.loop a :: l) ev f
  | again {a l e1 e2 f} : Run c m a e1 .fell → Run c m (.loop a :: l) e2 f → Run c m (.loop a :: l) (e1 ++ e2) f
  | loopOut {a l ev f} : Run c m a ev f → f ≠ .fell → Run c m (.loop a :: l) ev f

/-- The end of a handler. -/
def Flow.end : Flow → End
  | .over e => e
  | _ => .done

/-! ## HandleCommand -/

/-- `supported_commands[index / 10] & (1U << (index % 10))`, dual_mode_controller.cc 215-218. -/
def bit (bytes : List Nat) (i : Nat) : Bool := (bytes.getD (i / 10) 0).testBit (i % 10)

/-- `is_implemented_command`. -/
def implemented (op : Nat) : Bool := (handlers.lookup op).isSome

/-- `is_supported_command`, dual_mode_controller.cc 203-218. -/
def supported (c : Cfg) (op : Nat) : Bool :=
  op = 0x1002 || (op >>> 10 = 0x3f && implemented op) || (match indices.lookup op with
    | none => false
    | some i => bit c.bytes i)

/-- The commands that are executed in the local loopback mode, dual_mode_controller.cc 221-225. -/
def throughLoopback (op : Nat) : Bool :=
  op = 0x0c03 || op = 0x0c31 || op = 0x0c33 || op = 0x0c35 || op = 0x1005 || op = 0x1801 || op = 0x1802

/-- The state after a handler: Reset (dual_mode_controller.cc 319-331) and WriteLoopbackMode (3487-3508) change
it. -/
def after (s : St) (m : Cmd) : St :=
  if m.formed = false then s
  else if m.op = 0x0c03 then ⟨false, true⟩
  else if m.op = 0x1802 then { s with loopback := m.payload.head? = some 1 }
  else s

/-- HandleCommand, dual_mode_controller.cc 199-263, for a command packet whose own length is right. -/
inductive Handle (c : Cfg) (s : St) (m : Cmd) : List Ev → End → St → Prop
  | echo : s.loopback = true → throughLoopback m.op = false → Handle c s m [.loopback] .done s
  | early : ¬(s.loopback = true ∧ throughLoopback m.op = false) →
      (c.errorBeforeReset = true ∧ s.wasReset = false ∧ m.op ≠ 0x0c03) → Handle c s m [.hardwareError 0x42] .done s
  | run {l ev f} : ¬(s.loopback = true ∧ throughLoopback m.op = false) →
      ¬(c.errorBeforeReset = true ∧ s.wasReset = false ∧ m.op ≠ 0x0c03) →
      supported c m.op = true → handlers.lookup m.op = some l → Run c m l ev f →
      Handle c s m ev f.end (after s m)
  | missing : ¬(s.loopback = true ∧ throughLoopback m.op = false) →
      ¬(c.errorBeforeReset = true ∧ s.wasReset = false ∧ m.op ≠ 0x0c03) →
      supported c m.op = true → handlers.lookup m.op = none → c.strict = true →
      Handle c s m [] .crash s
  | unknown : ¬(s.loopback = true ∧ throughLoopback m.op = false) →
      ¬(c.errorBeforeReset = true ∧ s.wasReset = false ∧ m.op ≠ 0x0c03) →
      (supported c m.op = false ∨ (handlers.lookup m.op = none ∧ c.strict = false)) →
      Handle c s m [.complete m.op] .done s

/-! ## Configuration -/

/-- `supported_commands[index / 10] |= 1U << (index % 10)` or `&= ~(1U << (index % 10))`,
controller_properties.cc 1811-1821. -/
def setBit (set : Bool) (bytes : List Nat) (i : Nat) : List Nat :=
  bytes.modify (i / 10) (fun b => if set then b ||| 1 <<< (i % 10) else b &&& (255 ^^^ (1 <<< (i % 10)) % 256))

/-- `SetSupportedCommandBits`, controller_properties.cc 1811-1821. -/
def setBits (set : Bool) (bytes : List Nat) (l : List Nat) : List Nat := l.foldl (setBit set) bytes

/-- `SupportedCommands`, controller_properties.cc 463-472. -/
def defaultBytes : List Nat := setBits true (List.replicate 64 0) defaultCommands

/-- `ControllerPreset`. -/
inductive Preset
  | default
  | laird
  | csrDongle
  | intel
  deriving DecidableEq, Repr

/-- The base of the supported commands, controller_properties.cc 1830-1920. -/
def Preset.bytes : Preset → List Nat
  | .default => defaultBytes
  | .laird => lairdBytes
  | .csrDongle => csrDongleBytes
  | .intel => intelBytes

/-- The features of a configuration that name commands, each present or not, controller_properties.cc
1923-1975. -/
structure Features where
  extended : Option Bool
  periodic : Option Bool
  privacy : Option Bool
  iso : Option Bool
  subrating : Option Bool
  sounding : Option Bool
  power : Option Bool
  deriving DecidableEq, Repr

/-- One feature. -/
def apply (o : Option Bool) (l : List Nat) (bytes : List Nat) : List Nat := match o with
  | none => bytes
  | some b => setBits b bytes l

/-- `supported_commands` of a configuration, in the order of controller_properties.cc 1923-1975. -/
def configured (p : Preset) (f : Features) : List Nat :=
  apply f.power powerControlCommands (apply f.sounding soundingCommands (apply f.subrating subratingCommands
    (apply f.iso isochronousCommands (apply f.privacy privacyCommands
      (apply f.periodic periodicAdvertisingCommands (apply f.extended extendedAdvertisingCommands p.bytes))))))

end Verif.Hci
