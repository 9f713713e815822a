import Verif.Ll.Model
import Verif.Br.Model
import Verif.Link.Model
import Verif.Sub.Model
import Verif.Cs.Model
import Verif.Iso.Model
/-!
# C122: the talk of the controllers ends

Devices, each with an LE and a BR/EDR controller, and the packets that are on their way. A packet that is sent is on its way to any number
of devices. Packets are delivered in any order; nothing else happens: no command, no time.

The packets of an LE connection come in families, each with its model: features, versions, PHYs, encryption and data (`Link`), connection
parameters and subrating (`Sub`), channel sounding (`Cs`) and isochronous streams (`Iso`). The LMP packets of BR/EDR are the subject
of C123.
-/
namespace Verif.Storm
open Verif

/-- A packet of the air: of LE, in its families, or of BR/EDR with source and destination. -/
inductive Heard where
  | le (p : Ll.Packet)
  | link (p : Link.Pkt)
  | sub (p : Sub.Pdu)
  | cs (p : Cs.Pdu)
  | iso (p : Iso.Pdu)
  | br (src dst : Nat) (p : Br.Pkt)

/-- What a packet can cause a controller to send: the scanner and the initiator answer an advertisement, everything else is answered at most
once, to the sender, and answers are not answered. -/
inductive Causes : Heard → Heard → Prop where
  | scan (p : Ll.LegacyPdu) (own : Le.AddressWithType) : Causes (.le (.legacyAdv p)) (.le (.scan own p.adv))
  | connect (p : Ll.LegacyPdu) (own : Le.AddressWithType) (q : Ll.LinkParams) : Causes (.le (.legacyAdv p)) (.le (.connect own p.adv q))
  | scanExt (p : Ll.ExtPdu) (own : Le.AddressWithType) : Causes (.le (.extAdv p)) (.le (.scan own p.adv))
  | connectExt (p : Ll.ExtPdu) (own : Le.AddressWithType) (q : Ll.LinkParams) : Causes (.le (.extAdv p)) (.le (.connect own p.adv q))
  | response (s a : Le.AddressWithType) (d : List UInt8) : Causes (.le (.scan s a)) (.le (.scanResponse a s.address d))
  | complete (i a : Le.AddressWithType) (q : Ll.LinkParams) : Causes (.le (.connect i a q)) (.le (.connectComplete i a q))
  | phyRsp (tx rx tx' rx' : Nat) : Causes (.link (.phyReq tx rx)) (.link (.phyRsp tx' rx'))
  | phyInd (tx rx a b : Nat) : Causes (.link (.phyReq tx rx)) (.link (.phyInd a b))
  | phyDone (tx rx a b : Nat) : Causes (.link (.phyRsp tx rx)) (.link (.phyInd a b))
  | feat (f st : Nat) : Causes (.link .featReq) (.link (.featRsp f st))
  | ver (v sv c : Nat) : Causes (.link .verReq) (.link (.verRsp v sv c))
  | subrate (a b c d t : Nat) (st : Sub.Status) (f l c' t' : Nat) : Causes (.sub (.subrateReq a b c d t)) (.sub (.subrateInd st f l c' t'))
  | param (a b c t : Nat) (st : Sub.Status) (i l t' : Nat) : Causes (.sub (.paramReq a b c t)) (.sub (.paramUpdate st i l t'))
  | csCaps (c c' : Cs.Caps) (st : Cs.Status) : Causes (.cs (.capsReq c)) (.cs (.capsRsp st c'))
  | csFae (st : Cs.Status) (t : List Nat) : Causes (.cs .faeReq) (.cs (.faeRsp st t))
  | csConfig (id action role : Nat) (s : Cs.Settings) (st : Cs.Status) (id' : Nat) :
      Causes (.cs (.configReq id action role s)) (.cs (.configRsp st id'))
  | csSec (st : Cs.Status) : Causes (.cs .secReq) (.cs (.secRsp st))
  | csRsp (id : Nat) (s : Cs.Slot) (st : Cs.Status) (id' : Nat) (s' : Cs.Slot) : Causes (.cs (.csReq id s)) (.cs (.csRsp st id' s'))
  | csInd (id : Nat) (s : Cs.Slot) (st : Cs.Status) : Causes (.cs (.csReq id s)) (.cs (.csInd st id s))
  | csStart (st : Cs.Status) (id : Nat) (s : Cs.Slot) (st' : Cs.Status) : Causes (.cs (.csRsp st id s)) (.cs (.csInd st' id s))
  | csTerm (id n : Nat) (err st : Cs.Status) : Causes (.cs (.termReq id n err)) (.cs (.termRsp id n st))
  | cisInd (a b : Nat) : Causes (.iso .cisRsp) (.iso (.cisInd a b))
  | cisNext (r : Iso.CisReq) : Causes (.iso .cisRsp) (.iso (.cisReq r))
  | cisAfter (op err : Nat) (r : Iso.CisReq) : Causes (.iso (.rejectExtInd op err)) (.iso (.cisReq r))
  | reject (src dst own cod : Nat) (allow : Bool) (r : Nat) : Causes (.br src dst (.page cod allow)) (.br own src (.pageReject r))
  | role (src dst own r : Nat) : Causes (.br src dst .roleReq) (.br own src (.roleRsp r))
  | sco (src dst own : Nat) (p : Sco.ConnParams) (cod r : Nat) (l : Sco.LinkParams) : Causes (.br src dst (.scoReq p cod)) (.br own src (.scoRsp r l))
  | pong (src dst own : Nat) : Causes (.br src dst .ping) (.br own src .pong)
  | inquiry (src dst own t lap cod rssi : Nat) (eir : List UInt8) : Causes (.br src dst (.inquiry t lap)) (.br own src (.inqRsp t cod rssi eir))
  | name (src dst own : Nat) (n : List UInt8) : Causes (.br src dst .nameReq) (.br own src (.nameRsp n))
  | hostFeatures (src dst own f : Nat) : Causes (.br src dst .hostFeaturesReq) (.br own src (.hostFeaturesRsp f))
  | features (src dst own f : Nat) : Causes (.br src dst .featuresReq) (.br own src (.featuresRsp f))
  | ext (src dst own r page m f : Nat) : Causes (.br src dst (.extReq page)) (.br own src (.extRsp r page m f))
  | version (src dst own v sv c : Nat) : Causes (.br src dst .versionReq) (.br own src (.versionRsp v sv c))

/-- A device: the two controllers, with the models of the families; `sub` and `cs` are given for each connection. -/
structure Dev where
  le : Ll.State
  link : Link.Dev
  sub : Nat → Sub.End
  cs : Nat → Cs.End
  iso : Iso.State
  br : Br.Ctl

/-- A device receives a packet and sends some. -/
inductive Gets (ah : Ll.Hash) (cfg : Le.Config) : Dev → Heard → Dev → List Heard → Prop where
  | le (d : Dev) (rnd : Le.Irk → Le.Address) (now : Nat) (p : Ll.Packet) (s : Ll.State) (o : Ll.Obs)
      (h : Ll.step ah cfg d.le (.receive rnd now p) = .ok (s, o)) :
      Gets ah cfg d (.le p) { d with le := s } (o.out.filterMap (fun | .send q => some (.le q) | _ => none))
  | link (d : Dev) (h : Nat) (p : Link.Pkt) (r : Link.Out) (e : Link.receive d.link h p = some r) :
      Gets ah cfg d (.link p) { d with link := r.dev } (r.out.map fun x => .link x.2)
  | sub (d : Dev) (h : Nat) (p : Sub.Pdu) (st : Sub.Status) (x : Sub.End) (out : List Sub.Pdu) (ev : List Sub.Ev)
      (e : Sub.incoming (d.sub h) p = .ok st x out ev) :
      Gets ah cfg d (.sub p) { d with sub := fun k => if k = h then x else d.sub k } (out.map .sub)
  | cs (d : Dev) (h : Nat) (p : Cs.Pdu) (st : Cs.Status) (x : Cs.End) (out : List Cs.Pdu) (ev : List Cs.Ev)
      (e : Cs.incoming (d.cs h) p = .ok st x out ev) :
      Gets ah cfg d (.cs p) { d with cs := fun k => if k = h then x else d.cs k } (out.map .cs)
  | iso (d : Dev) (h : Nat) (p : Iso.Pdu) (s : Iso.State) (out : List Iso.Out) (e : Iso.runPdu d.iso h p = .ok (s, out)) :
      Gets ah cfg d (.iso p) { d with iso := s } (out.filterMap (fun | .llcp _ q => some (.iso q) | _ => none))
  | br (d : Dev) (now src dst rssi : Nat) (p : Br.Pkt) (r : Br.Status) (s : Br.Ctl) (out : List (Nat × Br.Pkt)) (ev : List Br.Ev)
      (h : Br.step d.br now (.packet src dst rssi p) = .ok r s out ev) :
      Gets ah cfg d (.br src dst p) { d with br := s } (out.map fun e => .br d.br.addr e.1 e.2)

/-- All the devices, with their configurations, and the packets on their way, each with the device that will receive it. -/
structure Net where
  dev : Nat → Dev
  air : List (Nat × Heard)

/-- A packet is delivered; what is sent because of it is on its way to the devices `rs`. -/
inductive Delivers (ah : Ll.Hash) (cfg : Nat → Le.Config) (rs : List Nat) : Net → Net → Prop where
  | mk (n : Net) (l r : List (Nat × Heard)) (i : Nat) (p : Heard) (d : Dev) (out : List Heard) :
      n.air = l ++ (i, p) :: r → Gets ah (cfg i) (n.dev i) p d out →
      Delivers ah cfg rs n { dev := fun j => if j = i then d else n.dev j, air := l ++ r ++ out.flatMap (fun q => rs.map fun j => (j, q)) }

/-- Deliveries, one after the other; `reach` says who is in reach at each of them. -/
inductive Later (ah : Ll.Hash) (cfg : Nat → Le.Config) (reach : Net → List Nat) : Net → Net → Prop where
  | refl (n : Net) : Later ah cfg reach n n
  | step {n m k : Net} : Delivers ah cfg (reach n) n m → Later ah cfg reach m k → Later ah cfg reach n k

end Verif.Storm
