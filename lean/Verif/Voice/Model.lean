import Verif.Br.Model
import Verif.Voice.Spec
/-!
# Enhanced synchronous connections

EnhancedSetupSynchronousConnection and EnhancedAcceptSynchronousConnection (/repo/model/controller/bredr_controller.cc
596-844) and the voice setting, on the controller of the `Br` component.
-/
namespace Verif.Voice
open Verif.Br (Ctl Cmd Ev Net NAct Res Status)
open Verif.Sco (ConnParams)

/-- `ScoCodingFormatValues::TRANSPARENT`, packets/hci_packets.pdl 1479. -/
def transparent : UInt8 := 0x03

/-- Whether the three members of two coding formats differ, bredr_controller.cc 615-618. -/
def differ (a b : Coding) : Bool := a.format != b.format || a.company != b.company || a.codec != b.codec

/-- The tests in the order of the code, bredr_controller.cc 613-713, and 739-838, which are the same: whether the
parameters are refused. -/
def refused (p : Params) : Bool :=
  if differ p.txCoding p.rxCoding then true
  else if p.inBandwidth != p.outBandwidth && p.inBandwidth != 0 && p.outBandwidth != 0 then true
  else if differ p.inCoding p.outCoding then true
  else if p.txCoding.format == transparent && p.inCoding.format == transparent && p.txBandwidth != p.inBandwidth then true
  else if (p.txCoding.format == transparent) != (p.inCoding.format == transparent) then true
  else if p.rxCoding.format == transparent && p.outCoding.format == transparent && p.rxBandwidth != p.outBandwidth then true
  else (p.rxCoding.format == transparent) != (p.outCoding.format == transparent)

/-- `datapath`, bredr_controller.cc 651-660: spoofed unless both paths are HCI. -/
def spoofed (p : Params) : Bool := p.inPath != 0 || p.outPath != 0

/-- The parameters handed on, bredr_controller.cc 715-718 and 840-843. -/
def plain (voice : UInt16) (p : Params) : ConnParams :=
  ⟨p.txBandwidth, p.rxBandwidth, p.maxLatency, voice, p.effort, p.packetType⟩

/-- The controller with its voice setting. -/
structure V where
  c : Ctl
  voice : UInt16
  deriving DecidableEq, Repr

/-- The commands: those of `Br`, Write Voice Setting, and the two of this file. -/
inductive VCmd
  | base (c : Cmd)
  | writeVoice (v : UInt16)
  | setup (h : Nat) (p : Params)
  | accept (a : Nat) (p : Params)
  deriving DecidableEq, Repr

/-- The voice setting after a command; Reset: bredr_controller.cc 1097; Write Voice Setting: dual_mode_controller.cc
1247-1258. -/
def voiceAfter (voice : UInt16) : VCmd → UInt16
  | .base .reset => 0x0060
  | .writeVoice v => v
  | _ => voice

/-- What the controller does for a command. The data path of Enhanced Accept is only logged (bredr_controller.cc 770-777). -/
def vcommand (v : V) (now : Nat) : VCmd → Res
  | .base c => Br.command v.c now c
  | .writeVoice _ => .ok Status.success v.c [] []
  | .setup h p => if refused p then Br.refuse v.c Status.invalidParameters else Br.command v.c now (.setupSync h (plain v.voice p) (spoofed p))
  | .accept a p => if refused p then Br.refuse v.c Status.invalidParameters else Br.command v.c now (.acceptSync a (plain v.voice p))

/-- Two controllers with their voice settings. -/
structure VNet where
  net : Net
  voiceA : UInt16
  voiceB : UInt16
  deriving DecidableEq, Repr

/-- What can happen to them: a command of a host, or anything else. -/
inductive VAct
  | hostA (c : VCmd)
  | hostB (c : VCmd)
  | other (x : NAct)
  deriving DecidableEq, Repr

/-- One step at time `now`, as `Br.nstep`. -/
def vstep (n : VNet) (now : Nat) : VAct → Option (VNet × List Ev × List Ev)
  | .hostA c => (Br.putA n.net n.net.toA (vcommand ⟨n.net.a, n.voiceA⟩ now c)).map (fun r => (⟨r.1, voiceAfter n.voiceA c, n.voiceB⟩, r.2))
  | .hostB c => (Br.putB n.net n.net.toB (vcommand ⟨n.net.b, n.voiceB⟩ now c)).map (fun r => (⟨r.1, n.voiceA, voiceAfter n.voiceB c⟩, r.2))
  | .other (.hostA _) => none
  | .other (.hostB _) => none
  | .other x => (Br.nstep n.net now x).map (fun r => (⟨r.1, n.voiceA, n.voiceB⟩, r.2))

/-- A history. -/
def vrun (n : VNet) : List (Nat × VAct) → Option (VNet × List Ev × List Ev)
  | [] => some (n, [], [])
  | (now, x) :: xs =>
    match vstep n now x with
    | none => none
    | some (n', ea, eb) => (vrun n' xs).map (fun r => (r.1, ea ++ r.2.1, eb ++ r.2.2))

/-- Two controllers after construction, bredr_controller.h 363. -/
def VNet.fresh (n : Net) : VNet := ⟨n, 0x0060, 0x0060⟩

end Verif.Voice
