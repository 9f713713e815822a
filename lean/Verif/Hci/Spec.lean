import Verif.Hci.Model
/-!
# What a host relies on when it sends commands -/
namespace Verif.Hci

/-- The events that answer a command: Command Complete, Command Status, or what the link manager and the link
layer answer. -/
def isAnswer : Ev → Bool
  | .complete _ => true
  | .status _ => true
  | .lm => true
  | .ll => true
  | _ => false

/-- The answer is for this command. -/
def isFor (op : Nat) : Ev → Bool
  | .complete o => o = op
  | .status o => o = op
  | .lm => true
  | .ll => true
  | _ => false

/-- A command was handled as its host expects: the controller goes on, and there is one answer, which is for
the command. -/
def answered (op : Nat) (ev : List Ev) (e : End) : Prop := e = .done ∧ ∃ a, ev.filter isAnswer = [a] ∧ isFor op a = true

/-- The controller executes commands: it does not echo them, and it does not wait for a Reset. -/
def executes (c : Cfg) (s : St) (op : Nat) : Prop :=
  (s.loopback = true → op ∈ [0x0c03, 0x0c31, 0x0c33, 0x0c35, 0x1005, 0x1801, 0x1802]) ∧ (c.errorBeforeReset = true → s.wasReset = true ∨ op = 0x0c03)

/-- A history of commands: each with what it caused. -/
inductive Hist (c : Cfg) : St → List (Cmd × List Ev) → St → Prop
  | nil {s} : Hist c s [] s
  | cons {s s' s'' m ev l} : Handle c s m ev .done s' → Hist c s' l s'' → Hist c s ((m, ev) :: l) s''

/-- The commands, by opcode, that break the rule that each command is answered once.
* 0x0c05 Set Event Filter, 0xfc8b and 0xfc8c of Intel: some parameters stop the controller;
* 0x1402 Reset Failed Contact Counter: is taken for another command;
* 0x0445 Remote OOB Extended Data Request Reply: the link manager does not know it;
* 0xfc00 CSR: answered with a vendor event, some parameters stop the controller;
* 0xfd57 APCF: an unknown part is answered and then reported as invalid. -/
def unruly : List Nat := [0x0c05, 0x1402, 0x0445, 0xfc00, 0xfc8b, 0xfc8c, 0xfd57]

/-- The commands the default controller says it supports and does not implement, by opcode: Read LMP Handle,
Flush, …, Host Number Of Completed Packets (0x0c35), …, LE CS Test End. -/
def hollow : List Nat := [
  0x0420, 0x0c08, 0x0c27, 0x0c28, 0x0c2b, 0x0c2c, 0x0c31, 0x0c35, 0x0c36, 0x0c3f, 0x0c48, 0x0c49,
  0x0c51, 0x0c55, 0x0c59, 0x0c6c, 0x0c79, 0x0c7b, 0x0c7c, 0x1406, 0x1803, 0x1804, 0x180a, 0x2014,
  0x2015, 0x201d, 0x201e, 0x201f, 0x204c, 0x204d, 0x207b, 0x2095, 0x2096
]

/-- Commands that several features of a configuration claim: LE Receiver Test (v2) and LE Set Data Related
Address Changes. -/
def shared : List Nat := [0x2033, 0x207c]

/-- The commands a feature of the configuration can add that are not implemented: the shared ones, LE CS Test
and LE CS Test End. -/
def added : List Nat := [0x2033, 0x207c, 0x2095, 0x2096]

/-- The commands that are passed on, or taken, without a look at their format: those of pairing (0x040b to
0x0c7d), of isochronous channels (0x2062 to 0x206f), of CSR and of Intel. -/
def unchecked : List Nat := [
  0x040b, 0x040c, 0x040d, 0x040e, 0x0411, 0x0413, 0x042b, 0x042c, 0x042d, 0x042e, 0x042f, 0x0430,
  0x0433, 0x0434, 0x0445, 0x0c57, 0x0c60, 0x0c7d, 0x2062, 0x2063, 0x2064, 0x2065, 0x2066, 0x2067,
  0x2068, 0x206a, 0x206e, 0x206f, 0xfc00, 0xfc8b, 0xfc8c
]

/-- The commands each kind of controller says it supports and does not implement. -/
def Preset.hollow : Preset → List Nat
  | .default => Verif.Hci.hollow
  | .laird => [
    0x0c7b, 0x0c7c, 0x2014, 0x2015, 0x201d, 0x201e, 0x201f, 0x2026, 0x2033, 0x2034, 0x204c, 0x204d,
    0x204f, 0x2050, 0x2059, 0x205a, 0x205b, 0x205c, 0x205d, 0x205e, 0x205f, 0x2061, 0x2069, 0x206b,
    0x206c, 0x2070, 0x2071, 0x2072, 0x2073, 0x2075, 0x2078, 0x2079, 0x207b, 0x207c, 0x2082, 0x2083,
    0x2084, 0x2085, 0x2086 ]
  | .csrDongle => [
    0x0403, 0x0404, 0x041a, 0x0420, 0x043f, 0x0440, 0x0441, 0x0442, 0x0443, 0x0444, 0x0c08, 0x0c09,
    0x0c0a, 0x0c0d, 0x0c11, 0x0c27, 0x0c28, 0x0c29, 0x0c2a, 0x0c2b, 0x0c2c, 0x0c31, 0x0c35, 0x0c36,
    0x0c3f, 0x0c48, 0x0c49, 0x0c51, 0x0c55, 0x0c59, 0x0c6c, 0x0c74, 0x0c75, 0x0c76, 0x0c77, 0x0c78,
    0x0c79, 0x0c7b, 0x0c7c, 0x1403, 0x1406, 0x1407, 0x1803, 0x1804, 0x180a, 0x2014, 0x2015, 0x201d,
    0x201e, 0x201f ]
  | .intel => [
    0x0403, 0x0404, 0x041a, 0x0420, 0x0c08, 0x0c09, 0x0c0a, 0x0c27, 0x0c28, 0x0c29, 0x0c2a, 0x0c31,
    0x0c35, 0x0c36, 0x0c3f, 0x0c48, 0x0c49, 0x0c51, 0x0c55, 0x0c59, 0x0c5a, 0x0c5b, 0x0c6c, 0x0c79,
    0x0c7b, 0x0c7c, 0x0c82, 0x0c83, 0x100c, 0x100d, 0x100e, 0x100f, 0x1403, 0x1406, 0x1407, 0x1803,
    0x1804, 0x180a, 0x2014, 0x2015, 0x201d, 0x201e, 0x201f, 0x2026, 0x2033, 0x2034, 0x204c, 0x204d,
    0x2061, 0x2070, 0x2071, 0x2072, 0x2073, 0x2075, 0x2078, 0x2079, 0x207b, 0x207c ]

/-- The features that come with commands. -/
inductive Feature
  | extendedAdvertising
  | periodicAdvertising
  | privacy
  | isochronousStreams
  | subrating
  | channelSounding
  | powerControl
  deriving DecidableEq, Repr

/-- What a configuration says about a feature. -/
def Features.get (f : Features) : Feature → Option Bool
  | .extendedAdvertising => f.extended
  | .periodicAdvertising => f.periodic
  | .privacy => f.privacy
  | .isochronousStreams => f.iso
  | .subrating => f.subrating
  | .channelSounding => f.sounding
  | .powerControl => f.power

/-- The commands of a feature, by opcode, without the two that several features claim (`shared`). -/
def Feature.commands : Feature → List Nat
  | .extendedAdvertising => [0x2035, 0x2036, 0x2037, 0x2038, 0x2039, 0x203a, 0x203b, 0x203c, 0x203d, 0x2041, 0x2042, 0x2043]
  | .periodicAdvertising => [0x203e, 0x203f, 0x2040, 0x2044, 0x2045, 0x2046, 0x2047, 0x2048, 0x2049, 0x204a]
  | .privacy => [0x2027, 0x2028, 0x2029, 0x202a, 0x202b, 0x202c, 0x202d, 0x202e, 0x204e]
  | .isochronousStreams => [0x2062, 0x2063, 0x2064, 0x2065, 0x2066, 0x2067, 0x206d, 0x206e, 0x206f]
  | .subrating => [0x207d, 0x207e]
  | .channelSounding => [0x2089, 0x208a, 0x208b, 0x208c, 0x208d, 0x208e, 0x208f, 0x2090, 0x2091, 0x2092, 0x2093, 0x2094, 0x2095, 0x2096]
  | .powerControl => [0x2076, 0x2077, 0x207a]

/-- The controller of a configuration. -/
def Cfg.of (p : Preset) (f : Features) (strict errorBeforeReset csr : Bool) : Cfg := ⟨strict, configured p f, errorBeforeReset, csr⟩

/-- The commands that reach a controller with the quirk: those before the first Reset are not executed. -/
def heard (c : Cfg) (l : List Cmd) : List Cmd := if c.errorBeforeReset then l.dropWhile (fun m => m.op ≠ 0x0c03) else l

/-- Whether the last Reset or Write Loopback Mode of a history leaves the local loopback on. -/
def loopbackAfter (l : List Cmd) : Bool := l.foldl (fun b m =>
  if m.op = 0x0c03 then false else if m.op = 0x1802 then m.payload.head? = some 1 else b) false

end Verif.Hci
