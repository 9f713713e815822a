import Verif.WireLink.Events
import Verif.WireLink.Spec
import Verif.WireLe.Spec

/-!
# The octets of events about LE connections (C131)

Bluetooth Core Specification, Volume 4, Part E, sections 5.4.2, 5.4.4, 7.7.8, 7.7.12, 7.7.19, 7.7.39 and 7.7.65: how a host reads
what the controller sends. Of the model only the type of events is used. This file does not refer to the packet description files.
-/
namespace Verif.WireLink

open Verif.Wire (le yes)
open Verif.WireBr (ofEvent get bytes)
open Verif.WireLe (ofSubevent)

/-- TX_PHY and RX_PHY: 1 LE 1M, 2 LE 2M, 3 LE Coded. -/
def ofPhy : Link.Phy → Nat
  | .m1 => 1
  | .m2 => 2
  | .coded => 3

/-- What the controller sends for an event. Keys have 16 octets. -/
def told : Tell → Nat × List Nat
  | .link (.phyDone h tx rx) => ofSubevent 0x0c (0 :: le 2 h ++ le 1 (ofPhy tx) ++ le 1 (ofPhy rx))
  | .link (.ltkRequest h x e) => ofSubevent 0x05 (le 2 h ++ x.map UInt8.toNat ++ le 2 e)
  | .link (.encChange st h b) => ofEvent 0x08 (le 1 st ++ le 2 h ++ le 1 (yes b))
  | .link (.encChangeV2 st h b) => ofEvent 0x59 (le 1 st ++ le 2 h ++ le 1 (yes b) ++ [16])
  | .link (.keyRefresh st h) => ofEvent 0x30 (le 1 st ++ le 2 h)
  | .link (.features st h f) => ofSubevent 0x04 (le 1 st ++ le 2 h ++ le 8 f)
  | .link (.version h v c s) => ofEvent 0x0c (0 :: le 2 h ++ le 1 v ++ le 2 c ++ le 2 s)
  | .link (.acl h pb bc d) => (2, le 2 (h + 4096 * pb + 16384 * bc) ++ le 2 d.length ++ d.map UInt8.toNat)
  | .link (.completed h n) => ofEvent 0x13 (1 :: le 2 h ++ le 2 n)
  | .sub h (.subrateChange st f l c t) => ofSubevent 0x23 (le 1 (ofReason st) ++ le 2 h ++ le 2 f ++ le 2 l ++ le 2 c ++ le 2 t)
  | .sub h (.paramRequest x y l t) => ofSubevent 0x06 (le 2 h ++ le 2 x ++ le 2 y ++ le 2 l ++ le 2 t)
  | .sub h (.updateComplete st i l t) => ofSubevent 0x03 (le 1 (ofReason st) ++ le 2 h ++ le 2 i ++ le 2 l ++ le 2 t)

/-- The values fit the octets they have. The subrate factor, the latency and the continuation number of a connection are at most
500, its supervision timeout at most 3200 (7.8.124). -/
def Tellable : Tell → Prop
  | .link (.phyDone h _ _) => h < 4096
  | .link (.ltkRequest h x e) => h < 4096 ∧ x.length = 8 ∧ e < 65536
  | .link (.encChange st h _) => st < 256 ∧ h < 4096
  | .link (.encChangeV2 st h _) => st < 256 ∧ h < 4096
  | .link (.keyRefresh st h) => st < 256 ∧ h < 4096
  | .link (.features st h f) => st < 256 ∧ h < 4096 ∧ f < 18446744073709551616
  | .link (.version h v c s) => h < 4096 ∧ v < 256 ∧ c < 65536 ∧ s < 65536
  | .link (.acl h pb bc d) => h < 4096 ∧ pb < 4 ∧ bc < 4 ∧ d.length < 65536
  | .link (.completed h n) => h < 4096 ∧ n < 65536
  | .sub h (.subrateChange st f l c t) => Known st ∧ h < 4096 ∧ f ≤ 500 ∧ l ≤ 500 ∧ c ≤ 500 ∧ t ≤ 3200
  | .sub h (.paramRequest x y l t) => h < 4096 ∧ x < 65536 ∧ y < 65536 ∧ l < 65536 ∧ t < 65536
  | .sub h (.updateComplete st i l t) => Known st ∧ h < 4096 ∧ i < 65536 ∧ l < 65536 ∧ t < 65536

/-! ### A host -/

def phyOf : Nat → Option Link.Phy
  | 1 => some .m1
  | 2 => some .m2
  | 3 => some .coded
  | _ => none

/-- 1 is on, 0 is off. -/
def onOf : Nat → Option Bool
  | 0 => some false
  | 1 => some true
  | _ => none

/-- The error codes of the core specification, by their names in `Verif.Sub`. -/
def statusOf? (n : Nat) : Sub.Status :=
  if n = 0x00 then .success else if n = 0x11 then .unsupportedValue else if n = 0x12 then .invalidParameters
  else if n = 0x1a then .unsupportedRemote else if n = 0x1e then .invalidLlParameters else .other n

/-- What a host takes from the parameters of a subevent. -/
def subevent? (code : Nat) (ps : List Nat) : Option Tell := match code with
  | 0x03 => do
    let (st, l) ← get 1 ps
    let (h, l) ← get 2 l
    let (i, l) ← get 2 l
    let (x, l) ← get 2 l
    let (t, _) ← get 2 l
    some (.sub h (.updateComplete (statusOf? st) i x t))
  | 0x04 => do
    let (st, l) ← get 1 ps
    let (h, l) ← get 2 l
    let (f, _) ← get 8 l
    some (.link (.features st h f))
  | 0x05 => do
    let (h, l) ← get 2 ps
    let (e, _) ← get 2 (l.drop 8)
    some (.link (.ltkRequest h (bytes (l.take 8)) e))
  | 0x06 => do
    let (h, l) ← get 2 ps
    let (x, l) ← get 2 l
    let (y, l) ← get 2 l
    let (z, l) ← get 2 l
    let (t, _) ← get 2 l
    some (.sub h (.paramRequest x y z t))
  | 0x0c => do
    let (_, l) ← get 1 ps
    let (h, l) ← get 2 l
    let (tx, l) ← get 1 l
    let (rx, _) ← get 1 l
    let tx ← phyOf tx
    let rx ← phyOf rx
    some (.link (.phyDone h tx rx))
  | 0x23 => do
    let (st, l) ← get 1 ps
    let (h, l) ← get 2 l
    let (f, l) ← get 2 l
    let (x, l) ← get 2 l
    let (c, l) ← get 2 l
    let (t, _) ← get 2 l
    some (.sub h (.subrateChange (statusOf? st) f x c t))
  | _ => none

/-- What a host takes from the parameters of an event. -/
def event? (code : Nat) (ps : List Nat) : Option Tell := match code with
  | 0x08 => do
    let (st, l) ← get 1 ps
    let (h, l) ← get 2 l
    let (b, _) ← get 1 l
    let b ← onOf b
    some (.link (.encChange st h b))
  | 0x0c => do
    let (_, l) ← get 1 ps
    let (h, l) ← get 2 l
    let (v, l) ← get 1 l
    let (c, l) ← get 2 l
    let (s, _) ← get 2 l
    some (.link (.version h v c s))
  | 0x13 => do
    let (_, l) ← get 1 ps
    let (h, l) ← get 2 l
    let (n, _) ← get 2 l
    some (.link (.completed h n))
  | 0x30 => do
    let (st, l) ← get 1 ps
    let (h, _) ← get 2 l
    some (.link (.keyRefresh st h))
  | 0x3e => do
    let (s, l) ← get 1 ps
    subevent? s l
  | 0x59 => do
    let (st, l) ← get 1 ps
    let (h, l) ← get 2 l
    let (b, _) ← get 1 l
    let b ← onOf b
    some (.link (.encChangeV2 st h b))
  | _ => none

/-- What a host takes from a packet: an event or ACL data, of the length it says. -/
def hears : Nat × List Nat → Option Tell
  | (4, code :: n :: ps) => if n = ps.length ∧ n < 256 then event? code ps else none
  | (2, l) => do
    let (w, l) ← get 2 l
    let (n, l) ← get 2 l
    if n = l.length then some (.link (.acl (w % 4096) (w / 4096 % 4) (w / 16384) (bytes l))) else none
  | _ => none

/-- What a call tells the host. -/
def tells (d : Did) : List Tell := d.ev.map .link ++ d.evs.map (fun x => .sub x.1 x.2)

end Verif.WireLink
