/-!
# Configuration parameters of the controller

The commands that write and read configuration parameters: model/controller/dual_mode_controller.cc,
model/controller/bredr_controller.{h,cc}, model/controller/le_controller.{h,cc}.

Simplifications.
* A parameter of a command or answer is a number, or a list of numbers if it has several. Commands are well formed
  (`Hci` models the refusal of others) and the numbers are those the packet has after the reserved bits are dropped.
* Connections appear and disappear by the actions `connect` and so on. `Br` and `Ll` model the procedures.
-/
namespace Verif.Reg

/-- A BR/EDR connection: `AclConnection::link_policy_settings_`, acl_connection.h. -/
structure Conn where
  policy : Nat
  deriving DecidableEq, Repr

/-- What does not change: `ControllerProperties`, controller_properties.h 143 (pages 0 and 2), `le_features` and
`num_supported_iac`. -/
structure Caps where
  page0 : Nat
  page2 : Nat
  leFeatures : Nat
  iacs : Nat

/-- The members of `BrEdrController` (bredr_controller.h 326-400), `LeController` (le_controller.h 728-755) and
`DualModeController` with the parameters. -/
structure St where
  hostFeatures : Nat
  pageScan : Bool
  inquiryScan : Bool
  inquiryScanInterval : Nat
  inquiryScanWindow : Nat
  inquiryMode : Nat
  pageTimeout : Nat
  acceptTimeout : Nat
  pageScanInterval : Nat
  pageScanWindow : Nat
  voice : Nat
  auth : Nat
  defaultPolicy : Nat
  scoFlow : Bool
  localName : List Nat
  classOfDevice : Nat
  laps : List Nat
  leHostFeatures : Nat
  csHost : Bool
  octets : Nat
  time : Nat
  loopback : Nat
  conns : Nat → Option Conn
  leConns : List Nat

/-- The members as they are constructed, and `SetLocalName` in `HciDevice::HciDevice`, model/devices/hci_device.cc 34-46.
The list of inquiry access codes is empty. -/
def St.fresh : St where
  hostFeatures := 0
  pageScan := false
  inquiryScan := false
  inquiryScanInterval := 0x1000
  inquiryScanWindow := 0x0012
  inquiryMode := 0
  pageTimeout := 0x2000
  acceptTimeout := 0x1fa0
  pageScanInterval := 0x0800
  pageScanWindow := 0x0012
  voice := 0x0060
  auth := 0
  defaultPolicy := 0
  scoFlow := false
  localName := [0x67, 0x44, 0x65, 0x76, 0x69, 0x63, 0x65, 0x2d, 0x48, 0x43, 0x49] ++ List.replicate 237 0
  classOfDevice := 0
  laps := []
  leHostFeatures := 0
  csHost := false
  octets := 0x001b
  time := 0x0148
  loopback := 0
  conns := fun _ => none
  leConns := []

/-- BrEdrController::Reset, bredr_controller.cc 1075-1122; LeController::Reset, le_controller.cc 6577-6621;
DualModeController::Reset, dual_mode_controller.cc 319-331. `channel_sounding_host_support_` is not among the members that
are set. -/
def reset (s : St) : St :=
  { s with
    conns := fun _ => none
    leConns := []
    hostFeatures := 0
    pageScan := false
    inquiryScan := false
    inquiryScanInterval := 0x1000
    inquiryScanWindow := 0x0012
    pageTimeout := 0x2000
    acceptTimeout := 0x1fa0
    pageScanInterval := 0x0800
    pageScanWindow := 0x0012
    voice := 0x0060
    auth := 0
    defaultPolicy := 0
    scoFlow := false
    localName := List.replicate 248 0
    classOfDevice := 0
    inquiryMode := 0
    laps := [0x33]
    leHostFeatures := 0
    octets := 0x001b
    time := 0x0148
    loopback := 0 }

/-- The parameters that a pair of commands writes and reads. -/
inductive Par
  | authenticationEnable
  | classOfDevice
  | pageTimeout
  | connectionAcceptTimeout
  | defaultLinkPolicy
  | localName
  | voiceSetting
  | currentIacLap
  | scanEnable
  | scoFlowControl
  | suggestedDataLength
  | loopbackMode
  | inquiryMode
  | pageScanType
  | inquiryScanType
  | pageScanActivity
  | inquiryScanActivity
  deriving DecidableEq, Repr

/-- The features that the host switches on and off. -/
inductive Feature
  | simplePairing
  | leHost
  | secureConnections
  deriving DecidableEq, Repr

abbrev unknownConnection := 0x02
abbrev disallowed := 0x0c
abbrev unsupported := 0x11
abbrev invalid := 0x12

/-- The first number of a parameter. -/
abbrev one (v : List Nat) : Nat := v.headD 0

/-- The commands that write: the status and the new state. dual_mode_controller.cc 932 (authentication), 967 (class), 990
(page timeout), 3465 (accept timeout), 1093 and bredr_controller.cc 1027-1035 (default link policy), 1198 (name), 1247
(voice), 1280 and bredr_controller.cc 2101-2109 (access codes), 1348 and bredr_controller.cc 1139-1144 (scan enable), 1408
(flow control), 2324-2342 (data length), 3487-3508 (loopback; the two connections it reports are not modelled), 847 (inquiry
mode). Write Page Scan Type (870), Write Inquiry Scan Type (893), Write Page Scan Activity (1303) and Write Inquiry Scan
Activity (1325) change nothing. -/
def write (c : Caps) (s : St) (p : Par) (v : List Nat) : Nat × St := match p with
  | .authenticationEnable => (0, { s with auth := one v })
  | .classOfDevice => (0, { s with classOfDevice := one v })
  | .pageTimeout => (0, { s with pageTimeout := one v })
  | .connectionAcceptTimeout => (0, { s with acceptTimeout := one v })
  | .defaultLinkPolicy => if one v > 7 then (invalid, s) else (0, { s with defaultPolicy := one v })
  | .localName => (0, { s with localName := v })
  | .voiceSetting => (0, { s with voice := one v })
  | .currentIacLap => (0, { s with laps := if v.length > c.iacs then v.take c.iacs else v })
  | .scanEnable => (0, { s with inquiryScan := one v = 3 || one v = 1, pageScan := one v = 3 || one v = 2 })
  | .scoFlowControl => (0, { s with scoFlow := one v = 1 })
  | .suggestedDataLength =>
    if v.getD 0 0 > 0xfb ∨ v.getD 0 0 < 0x1b ∨ v.getD 1 0 < 0x148 ∨ v.getD 1 0 > 0x4290 then (invalid, s)
    else (0, { s with octets := v.getD 0 0, time := v.getD 1 0 })
  | .loopbackMode => (0, { s with loopback := one v })
  | .inquiryMode => (0, { s with inquiryMode := one v })
  | .pageScanType => (0, s)
  | .inquiryScanType => (0, s)
  | .pageScanActivity => (0, s)
  | .inquiryScanActivity => (0, s)

/-- The commands that read: dual_mode_controller.cc 945, 957, 979, 3455, 1081, 1188, 1237, 1270, 1335 and
bredr_controller.cc 1130-1136, 1394, 2313, 3477; 836 (inquiry mode), 859, 882, 1291 and 1313 answer constants. -/
def read (s : St) (p : Par) : List Nat := match p with
  | .authenticationEnable => [s.auth]
  | .classOfDevice => [s.classOfDevice]
  | .pageTimeout => [s.pageTimeout]
  | .connectionAcceptTimeout => [s.acceptTimeout]
  | .defaultLinkPolicy => [s.defaultPolicy]
  | .localName => s.localName
  | .voiceSetting => [s.voice]
  | .currentIacLap => s.laps
  | .scanEnable => [if s.inquiryScan && s.pageScan then 3 else if s.inquiryScan then 1 else if s.pageScan then 2 else 0]
  | .scoFlowControl => [if s.scoFlow then 1 else 0]
  | .suggestedDataLength => [s.octets, s.time]
  | .loopbackMode => [s.loopback]
  | .inquiryMode => [0]
  | .pageScanType => [0]
  | .inquiryScanType => [0]
  | .pageScanActivity => [0x1000, 0x0012]
  | .inquiryScanActivity => [0x1000, 0x0012]

/-- The bits in bredr_controller.cc 1220-1252. -/
def Feature.mask : Feature → Nat
  | .simplePairing => 1
  | .leHost => 2
  | .secureConnections => 8

/-- `x &= ~m`, for 64 bits. -/
def clear (x m : Nat) : Nat := x &&& ((2 ^ 64 - 1) ^^^ m)

/-- SetSecureSimplePairingSupport, SetLeHostSupport, SetSecureConnectionsSupport, bredr_controller.cc 1219-1253. -/
def setFeature (s : St) (f : Feature) (on : Bool) : St :=
  { s with hostFeatures := if on then s.hostFeatures ||| f.mask else clear s.hostFeatures f.mask }

/-- ReadLocalExtendedFeatures, dual_mode_controller.cc 498-510, and GetLmpFeatures, bredr_controller.h 305-307. Nothing: the
page is outside of the array. -/
def readFeatures (c : Caps) (s : St) (page : Nat) : Option (List Nat) :=
  if page = 1 then some [page, 2, s.hostFeatures]
  else if page = 0 then some [page, 2, c.page0]
  else if page = 2 then some [page, 2, c.page2]
  else none

/-- LeSetHostFeature, le_controller.cc 674-715. -/
def setLeFeature (s : St) (bit value : Nat) : Nat × St :=
  if bit ≥ 64 ∨ value > 1 then (invalid, s)
  else if s.leConns ≠ [] then (disallowed, s)
  else
    let host := if value ≠ 0 then s.leHostFeatures ||| 1 <<< bit else clear s.leHostFeatures (1 <<< bit)
    if 1 <<< bit = 0x100000000 then (0, { s with leHostFeatures := host })
    else if 1 <<< bit = 0x4000000000 then (0, { s with leHostFeatures := host })
    else if 1 <<< bit = 0x800000000000 then (0, { s with csHost := value ≠ 0, leHostFeatures := host })
    else (unsupported, s)

/-- ReadLinkPolicySettings, bredr_controller.cc 994-1002. -/
def readPolicy (s : St) (h : Nat) : Nat × Nat := match s.conns h with
  | none => (unknownConnection, 0)
  | some x => (0, x.policy)

/-- WriteLinkPolicySettings, bredr_controller.cc 1005-1017. -/
def writePolicy (s : St) (h v : Nat) : Nat × St := match s.conns h with
  | none => (unknownConnection, s)
  | some _ => if v > 7 then (invalid, s) else (0, { s with conns := fun k => if k = h then some ⟨v⟩ else s.conns k })

/-- What happens. `soundingAllowed` is the check at the beginning of the channel sounding commands, le_controller.cc 2419 and
so on. -/
inductive Act
  | write (p : Par) (v : List Nat)
  | read (p : Par)
  | setFeature (f : Feature) (on : Nat)
  | readFeatures (page : Nat)
  | setLeFeature (bit value : Nat)
  | readLeFeatures
  | soundingAllowed
  | readPolicy (h : Nat)
  | writePolicy (h v : Nat)
  | reset
  | connect (h : Nat)
  | disconnect (h : Nat)
  | leConnect (h : Nat)
  | leDisconnect (h : Nat)
  deriving DecidableEq, Repr

/-- The answer: the status and the values of the command complete event; or the command is sent back, in the local loopback
mode; or the controller reads outside of an array. -/
inductive Res
  | answer (status : Nat) (v : List Nat)
  | looped
  | none
  | crash
  deriving DecidableEq, Repr

/-- The commands that are executed in the local loopback mode, dual_mode_controller.cc 221-225. -/
def Act.looped : Act → Bool
  | .reset => false
  | .write .loopbackMode _ => false
  | .read .loopbackMode => false
  | .connect _ => false
  | .disconnect _ => false
  | .leConnect _ => false
  | .leDisconnect _ => false
  | _ => true

/-- The execution of a command, or another action. -/
def exec (c : Caps) (s : St) : Act → Res × St
  | .write p v => (.answer (write c s p v).1 [], (write c s p v).2)
  | .read p => (.answer 0 (read s p), s)
  | .setFeature f on => (.answer 0 [], setFeature s f (on = 1))
  | .readFeatures page => match readFeatures c s page with
    | none => (.crash, s)
    | some v => (.answer 0 v, s)
  | .setLeFeature b v => (.answer (setLeFeature s b v).1 [], (setLeFeature s b v).2)
  | .readLeFeatures => (.answer 0 [c.leFeatures ||| s.leHostFeatures], s)
  | .soundingAllowed => (.answer (if s.csHost then 0 else disallowed) [], s)
  | .readPolicy h => (.answer (readPolicy s h).1 [h, (readPolicy s h).2], s)
  | .writePolicy h v => (.answer (writePolicy s h v).1 [h], (writePolicy s h v).2)
  | .reset => (.answer 0 [], reset s)
  | .connect h => (.none, { s with conns := fun k => if k = h then some ⟨s.defaultPolicy⟩ else s.conns k })
  | .disconnect h => (.none, { s with conns := fun k => if k = h then none else s.conns k })
  | .leConnect h => (.none, { s with leConns := h :: s.leConns })
  | .leDisconnect h => (.none, { s with leConns := s.leConns.filter (fun k => !(k = h)) })

/-- One step. -/
def step (c : Caps) (s : St) (x : Act) : Res × St :=
  if s.loopback = 1 ∧ x.looped = true then (.looped, s) else exec c s x

/-- A history: the results. It ends at a crash. -/
def run (c : Caps) (s : St) : List Act → List Res
  | [] => []
  | x :: xs => match step c s x with
    | (.crash, _) => [.crash]
    | (r, s') => r :: run c s' xs

end Verif.Reg
