import Verif.Cs.SpecRefuse

/-!
# How a controller answers the channel sounding PDUs of its peer

Core Specification 6.0, Vol 6, Part B, 5.1.23 to 5.1.28, as far as the emulator follows it: a request is refused with the code of
the first reason that applies, otherwise carried out; an answer is passed to the host. The codes: 0x06 key missing, 0x0C command
disallowed, 0x1A unsupported remote feature, 0x1E invalid parameters, 0x20 unsupported parameter value, 0x2F insufficient
security. -/
namespace Verif.Cs

/-- A slot in which all fields are zero. -/
def noSlot : Slot :=
  { eventCount := 0, offMin := 0, offMax := 0, eventInterval := 0, perEvent := 0, subeventInterval := 0, subeventLen := 0, aci := 0, phy := 0, delta := 0 }

/-- The parameters of a proposed configuration the emulator accepts: it takes mode 1 for mode 3, and the initiator's role for the
reflector's (C60). -/
def acceptable (c : Caps) (role : Nat) (s : Settings) : Bool :=
  c.roles.testBit (if role = 1 then 1 else 0) && s.main == 1 && c.modes % 2 == 1 && (s.sub ∈ [2, 255]) && canMeasure c s.rtt &&
    canSync c s.phy && s.selection == 1 && (s.shape ∈ [0, 1]) && (s.jump ∈ [2, 3, 4, 5, 6, 7, 8])

/-- The reasons to refuse the peer's request. -/
def why (e : End) : Pdu → List Reason
  | .capsReq _ | .faeReq => [(!e.hostSupport, 0x1A)]
  | .configReq _ _ role s => [(!e.hostSupport, 0x1A), (!acceptable e.caps role s, 0x20)]
  | .secReq => [(!e.encrypted, 0x2F), (!e.hostSupport, 0x1A)]
  | .csReq id _ => [(!e.hostSupport, 0x1A), ((e.config id).isNone, 0x1E), (e.iv == 0, 0x06), (e.fae.isNone, 0x0C)]
  | _ => []

/-- The answer that refuses: its fields other than the code. The identifier is that of the request only where the controller knows
what is asked of it. -/
def refusal (e : End) (code : Nat) : Pdu → List Pdu
  | .capsReq _ => [.capsRsp code { e.caps with subfeatures := 0 }]
  | .faeReq => [.faeRsp code (List.replicate 72 0)]
  | .configReq id _ _ _ => [.configRsp code (if e.hostSupport then id else 0)]
  | .secReq => [.secRsp code]
  | .csReq id _ => [.csRsp code (if e.hostSupport && (e.config id).isSome then id else 0) noSlot]
  | _ => []

/-- An event, unless it is masked. -/
def heard (unmasked : Bool) (v : Ev) : List Ev := if unmasked then [v] else []

/-- The event of a procedure that starts; nothing if the configuration is not known. -/
def startEvent (e : End) (id : Nat) (slot : Slot) : List Ev :=
  match (e.config id).bind (·.proc) with
  | none => []
  | some p => heard e.mask.proc (.proc 0 id true p.antenna p.txDelta slot p.minInterval p.maxCount p.maxLen)

/-- The event of a procedure that ends. -/
def endEvent (e : End) (id code : Nat) : List Ev := heard e.mask.proc (.proc code id false 0 0 noSlot 0 0 0)

/-- The fields of a configuration's event: jump is reported in the reserved field after its own. -/
def reported (action : Nat) (s : Settings) : Settings :=
  if action = 1 then { s with jump := 0 }
  else { map := s.map, repetition := s.repetition, main := 1, sub := 255, minSteps := s.minSteps, maxSteps := s.maxSteps, mainRepetition := s.mainRepetition, mode0 := s.mode0, phy := 1, rtt := 0, selection := 0, shape := 0, jump := 0 }

/-- A configuration of which nothing is known. -/
def nothing : Settings :=
  { map := zeros, repetition := 0, main := 0, sub := 0, minSteps := 0, maxSteps := 0, mainRepetition := 0, mode0 := 0, phy := 0, rtt := 0, selection := 0, shape := 0, jump := 0 }

/-- What a PDU that is not refused leaves behind. -/
def after (e : End) : Pdu → End
  | .capsReq c => { e with remote := some c }
  | .capsRsp st c => if st = 0 then { e with remote := some c } else e
  | .faeRsp st t => if st = 0 then { e with fae := some t } else e
  | .configReq id action role s =>
    if action = 1 then { e with configs := ⟨id, opposite role, s, false, none⟩ :: e.configs.filter (fun c => c.id != id) }
    else if action = 0 then { e with configs := e.configs.filter (fun c => c.id != id) }
    else e
  | .configRsp st id => if st = 0 then e else { e with configs := e.configs.filter (fun c => c.id != id) }
  | .secReq => { e with iv := 0x1234567890ABCDEF, secure := true }
  | .secRsp st => if st = 0 then { e with secure := true } else e
  | .mapInd m => { e with configs := e.configs.map (fun c => if c.enabled then { c with s := { c.s with map := m } } else c) }
  | _ => e

/-- What is sent back. -/
def sends (e : End) : Pdu → List Pdu
  | .capsReq _ => [.capsRsp 0 { e.caps with subfeatures := 0 }]
  | .faeReq => [.faeRsp 0 ((List.range' 1 72))]
  | .configReq id _ _ _ => [.configRsp 0 id]
  | .secReq => [.secRsp 0]
  | .csReq id slot => if e.central then [.csInd 0 id slot] else [.csRsp 0 id slot]
  | .csRsp _ id slot => if e.hostSupport && e.central then [.csInd 0 id slot] else []
  | .termReq id count code => [.termRsp id count (if (e.config id).isNone then 0x0C else code)]
  | _ => []

/-- What the host is told. -/
def tells (e : End) : Pdu → List Ev
  | .capsReq _ => heard e.mask.caps (.caps 0)
  | .capsRsp st _ => heard e.mask.caps (.caps st)
  | .faeRsp st t => heard e.mask.fae (.fae st (if st = 0 then t else List.replicate 72 0))
  | .configReq id action role s =>
    heard e.mask.config (.config 0 id (action == 1) (if action = 1 then opposite role else 0) (reported action s) s.jump)
  | .configRsp st id => heard e.mask.config
    (match e.config id with
     | none => .config st id false 0 nothing 0
     | some c => .config st id true c.role c.s 0)
  | .secReq => heard e.mask.sec (.sec 0)
  | .secRsp st => heard e.mask.sec (.sec st)
  | .csReq id slot => if e.central then startEvent e id slot else []
  | .csRsp _ id slot => if e.hostSupport && e.central then startEvent e id slot else []
  | .csInd _ id slot => if e.hostSupport && !e.central then startEvent e id slot else []
  | .termReq id _ code => endEvent e id (if (e.config id).isNone then 0x0C else code)
  | .termRsp id _ code => endEvent e id code
  | .mapInd _ | .faeReq => []

end Verif.Cs
