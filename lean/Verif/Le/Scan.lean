import Verif.Le.Lists
/-!
# LE command layer: scanning and initiating

Model of the legacy and extended scan and connection creation commands
(le_controller.cc 1223-1930) and of the scan timers (6246-6304).
-/

namespace Verif.Le

/-- The prologue of the legacy commands: `if (!SelectLegacyAdvertising()) return
COMMAND_DISALLOWED;`, with `SelectLegacyAdvertising` (le_controller.h 695-701). The
flag is set before anything else is checked. -/
def withLegacy (s : State) (f : State → State × Status) : State × Status :=
  if s.extendedInUse = true then (s, .commandDisallowed) else f { s with legacyInUse := true }

/-- The prologue of the extended commands, with `SelectExtendedAdvertising`
(le_controller.h 703-709). -/
def withExtended (s : State) (f : State → State × Status) : State × Status :=
  if s.legacyInUse = true then (s, .commandDisallowed) else f { s with extendedInUse := true }

/-- Scan enable check on the own address type (le_controller.cc 1299-1307, 1480-1488). -/
def scanAddressMissing (s : State) : Bool :=
  (s.scanner.ownAddressType == .random || s.scanner.ownAddressType == .resolvableOrRandom) &&
    s.randomAddress == 0

/-- `LeSetScanParameters` (le_controller.cc 1223-1271). -/
def setScanParameters (s : State) (scanType : ScanType) (interval window : Nat)
    (own : OwnAddressType) (policy : ScanFilterPolicy) : State × Status :=
  withLegacy s fun s =>
    checked
      [(s.scanner.enable, .commandDisallowed),
       (decide (interval < 0x4 ∨ interval > 0x4000 ∨ window < 0x4 ∨ window > 0x4000),
          .unsupportedFeatureOrParameterValue),
       (decide (window > interval), .invalidHciCommandParameters)]
      s { s with scanner := { s.scanner with le1m := ⟨true, scanType, interval, window⟩, leCoded := { s.scanner.leCoded with enabled := false }, ownAddressType := own, filterPolicy := policy } }

/-- `LeSetScanEnable` (le_controller.cc 1274-1317). -/
def setScanEnable (s : State) (enable filterDuplicates : Bool) : State × Status :=
  withLegacy s fun s =>
    if enable = false then
      ({ s with scanner := { s.scanner with enable := false } }, .success)
    else
      checked [(scanAddressMissing s, .invalidHciCommandParameters)]
        s { s with scanner := { s.scanner with enable := true, timeout := none, periodicalTimeout := none, filterDuplicates := if filterDuplicates then .enabled else .disabled } }

/-- `LeSupportedPhys` (controller_properties.h 228-237). -/
def Config.supportedPhys (cfg : Config) : Nat :=
  1 ||| (if cfg.supports2mPhy then 2 else 0) ||| (if cfg.supportsCodedPhy then 4 else 0)

/-- `ScanningPhyParameters` (hci_packets.pdl). -/
structure ScanPhyParams where
  scanType : ScanType
  interval : Nat
  window : Nat
  deriving DecidableEq, Repr

/-- `__builtin_popcount` on the eight PHY bits. -/
def popcount (n : Nat) : Nat :=
  (List.range 8).foldl (fun acc i => acc + (if n.testBit i then 1 else 0)) 0

/-- Scan parameters as stored (le_controller.cc 1403-1421). -/
def ScanPhyParams.toPhy (p : ScanPhyParams) : ScanPhy := ⟨true, p.scanType, p.interval, p.window⟩

/-- `params[offset]` (`std::vector::operator[]`); the index is in range whenever the
checks passed (`C43_indices`), the default is never used. -/
def paramAt {α : Type} (d : α) (l : List α) (offset : Nat) : α := l.getD offset d

/-- `LeSetExtendedScanParameters` (le_controller.cc 1324-1423). The mask is a
`uint8_t`: `phys & ~supported` is computed on eight bits. -/
def setExtendedScanParameters (cfg : Config) (s : State) (own : OwnAddressType)
    (policy : ScanFilterPolicy) (phys : Nat) (params : List ScanPhyParams) : State × Status :=
  withExtended s fun s =>
    checked
      ([(s.scanner.enable, .commandDisallowed),
        (phys &&& (0xff - cfg.supportedPhys) != 0, .unsupportedFeatureOrParameterValue),
        (popcount phys != params.length, .invalidHciCommandParameters),
        (phys == 0, .invalidHciCommandParameters)] ++
       params.flatMap (fun p =>
        [(decide (p.interval < 0x4 ∨ p.window < 0x4), .invalidHciCommandParameters),
         (decide (p.window > p.interval), .invalidHciCommandParameters)]))
      s
      (let d : ScanPhyParams := ⟨.passive, 0, 0⟩
       let le1m := if phys.testBit 0 then (paramAt d params 0).toPhy else { s.scanner.le1m with enabled := false }
       let offset := if phys.testBit 0 then 1 else 0
       let leCoded := if phys.testBit 2 then (paramAt d params offset).toPhy else { s.scanner.leCoded with enabled := false }
       { s with scanner := { s.scanner with ownAddressType := own, filterPolicy := policy, le1m := le1m, leCoded := leCoded } })

/-- `LeSetExtendedScanEnable` (le_controller.cc 1426-1511); `duration` in units of
10 ms and `period` in units of 1.28 s. -/
def setExtendedScanEnable (now : Nat) (s : State) (enable : Bool) (fd : FilterDuplicates)
    (duration period0 : Nat) : State × Status :=
  withExtended s fun s =>
    if enable = false then
      ({ s with scanner := { s.scanner with enable := false } }, .success)
    else
      let period := if duration = 0 then 0 else period0
      checked
        [(fd == .resetEachPeriod && (period == 0 || duration == 0), .invalidHciCommandParameters),
         (period != 0 && duration != 0 && decide (10 * duration ≥ 1280 * period),
            .invalidHciCommandParameters),
         (scanAddressMissing s, .invalidHciCommandParameters)]
        s { s with scanner := { s.scanner with enable := true, filterDuplicates := fd, duration := 10000 * duration, period := 1280000 * period, timeout := (if duration = 0 then none else some (now + 10000 * duration)), periodicalTimeout := (if period = 0 then none else some (now + 1280000 * period)) } }

/-- `LeScanning` (le_controller.cc 6246-6304) without the scan request timeouts;
the flag says whether LE Scan Timeout is due. -/
def scanning (now : Nat) (s : State) : State × Bool :=
  if s.scanner.enable = false then (s, false)
  else
    let expired (t : Option Nat) : Bool := t.any (fun t => decide (now ≥ t))
    -- end of a single scan
    let stop := expired s.scanner.timeout && s.scanner.periodicalTimeout.isNone
    let sc := if stop then { s.scanner with enable := false } else s.scanner
    -- end of duration
    let sc := if expired sc.timeout && sc.periodicalTimeout.isSome then { sc with timeout := none } else sc
    -- end of period
    let sc := if sc.timeout.isNone && expired sc.periodicalTimeout then { sc with timeout := some (now + sc.duration), periodicalTimeout := some (now + sc.period) } else sc
    ({ s with scanner := sc }, stop)

/-! ### Initiating -/

/-- The parameter checks shared by `LeCreateConnection` (le_controller.cc 1540-1617)
and the loop of `LeExtendedCreateConnection` (1761-1842), in order.
`duration_cast<milliseconds>((1 + max_latency) * slots(2 * connection_interval_max) * 2)`
is `((1 + latency) * (2 * interval_max) * 2 * 625) / 1000` in integers. -/
def connChecks (p : ConnParams) : List (Bool × Status) :=
  [(decide (p.scanInterval < 0x4 ∨ p.scanInterval > 0x4000 ∨ p.scanWindow < 0x4 ∨ p.scanWindow > 0x4000),
      .unsupportedFeatureOrParameterValue),
   (decide (p.scanInterval < p.scanWindow), .invalidHciCommandParameters),
   (decide (p.intervalMin < 0x6 ∨ p.intervalMin > 0xc80 ∨ p.intervalMax < 0x6 ∨ p.intervalMax > 0xc80),
      .unsupportedFeatureOrParameterValue),
   (decide (p.intervalMax < p.intervalMin), .invalidHciCommandParameters),
   (decide (p.maxLatency > 0x1f3), .unsupportedFeatureOrParameterValue),
   (decide (p.supervisionTimeout < 0xa ∨ p.supervisionTimeout > 0xc80),
      .unsupportedFeatureOrParameterValue),
   (decide (p.supervisionTimeout * 10 < ((1 + p.maxLatency) * (2 * p.intervalMax) * 2 * 625) / 1000),
      .invalidHciCommandParameters)]

/-- Address checks of the connection creation commands (le_controller.cc
1626-1649, 1848-1871). `LeCreateConnection` calls
`GenerateResolvablePrivateAddress` only when the two conditions before it hold;
the updated resolving list is returned with the verdict. -/
def initiatorAddressCheck (rnd : Irk → Address) (s : State) (policy : InitiatorFilterPolicy)
    (peer : AddressWithType) (own : OwnAddressType) : State × Bool :=
  if own = .random ∧ s.randomAddress = 0 then (s, true)
  else if own = .resolvableOrRandom ∧ policy = .usePeerAddress then
    let r := generateRpa rnd peer .loc s.resolvingList
    ({ s with resolvingList := r.1 }, r.2.isNone && s.randomAddress == 0)
  else (s, false)

/-- `LeCreateConnection` (le_controller.cc 1518-1668). -/
def createConnection (rnd : Irk → Address) (s : State) (policy : InitiatorFilterPolicy)
    (peer : AddressWithType) (own : OwnAddressType) (p : ConnParams) : State × Status :=
  withLegacy s fun s =>
    checkedThen ((s.initiator.enable, .commandDisallowed) :: connChecks p) s <|
      let r := initiatorAddressCheck rnd s policy peer own
      let s := r.1
      if r.2 = true then (s, .invalidHciCommandParameters)
      else ({ s with initiator := { s.initiator with enable := true, filterPolicy := policy, peerAddress := peer, ownAddressType := own, le1m := ⟨true, p⟩, le2m := { s.initiator.le2m with enabled := false }, leCoded := { s.initiator.leCoded with enabled := false }, pendingConnectRequest := none } }, .success)

/-- `LeCreateConnectionCancel` (le_controller.cc 1671-1701); the connection
complete event it schedules is not part of this model. -/
def createConnectionCancel (s : State) : State × Status :=
  checked [(!s.initiator.enable, .commandDisallowed)]
    s { s with initiator := { s.initiator with enable := false } }

/-- `LeExtendedCreateConnection` (le_controller.cc 1708-1930). -/
def extendedCreateConnection (rnd : Irk → Address) (s : State) (policy : InitiatorFilterPolicy)
    (own : OwnAddressType) (peer : AddressWithType) (phys : Nat) (params : List ConnParams) :
    State × Status :=
  withExtended s fun s =>
    checkedThen ([(s.initiator.enable, .commandDisallowed),
        (phys &&& 0xf8 != 0, .unsupportedFeatureOrParameterValue),
        (popcount phys != params.length, .invalidHciCommandParameters),
        (phys == 0, .invalidHciCommandParameters)] ++ params.flatMap connChecks) s <|
      let r := initiatorAddressCheck rnd s policy peer own
      let s := r.1
      if r.2 = true then (s, .invalidHciCommandParameters)
      else
        let le1m := if phys.testBit 0 then ⟨true, paramAt {} params 0⟩ else { s.initiator.le1m with enabled := false }
        let o1 := if phys.testBit 0 then 1 else 0
        let le2m := if phys.testBit 1 then ⟨true, paramAt {} params o1⟩ else { s.initiator.le2m with enabled := false }
        let o2 := if phys.testBit 1 then o1 + 1 else o1
        let leCoded := if phys.testBit 2 then ⟨true, paramAt {} params o2⟩ else { s.initiator.leCoded with enabled := false }
        ({ s with initiator := { s.initiator with enable := true, filterPolicy := policy, peerAddress := peer, ownAddressType := own, le1m := le1m, le2m := le2m, leCoded := leCoded, pendingConnectRequest := none } }, .success)

end Verif.Le
