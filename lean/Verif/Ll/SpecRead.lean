import Verif.Ll.SpecAsk
/-!
# Reading resolvable private addresses: specification (C111)
-/

namespace Verif.Ll
open Verif.Le

/-- The sender of a packet outside connections. -/
def sender : Packet → Option AddressWithType
  | .legacyAdv p => some p.adv
  | .extAdv p => some p.adv
  | .periodic p => some p.adv
  | .connect init _ _ => some init
  | .connectComplete _ adv _ => some adv
  | .scan scanner _ => some scanner
  | .scanResponse adv _ _ => some adv
  | .link .. => none

/-- The peer behind a resolvable private address: the first one whose key explains it. -/
def Ask.behind (n : Ask) (ah : Hash) (a : AddressWithType) (e : Peer) : Prop :=
  n.resolve = true ∧ a.type = .randomDevice ∧ ∃ before after, n.peers = before ++ e :: after ∧
    RpaOf ah e.peerKey a.address ∧ ∀ x ∈ before, ¬ RpaOf ah x.peerKey a.address

/-- A scan request or a connect request is among the outputs. -/
def asked (out : List Out) : Bool :=
  out.any fun o => match o with
    | .send (.scan ..) => true
    | .send (.connect ..) => true
    | _ => false

/-- The host took the peer with this identity from the resolving list. -/
def forgets (o : Op) (b : Obs) (t : PeerAddressType) (i : Address) : Bool :=
  match o with
  | .cmd (.removeResolving t' i') => b.status == some .success && t' == t && i' == i
  | .cmd .clearResolving => b.status == some .success
  | .reset => true
  | _ => false

/-- The operations that make new local addresses: advertising is started, a connection is
created, or a packet comes in. The addresses made of a key. -/
def draws : Op → Irk → Address → Prop
  | .cmd (.setAdvertisingEnable _ rnd _), k, a => ∃ j, a = rnd j k
  | .cmd (.setExtAdvertisingEnable _ rnd _ _), k, a => ∃ j, a = rnd j k
  | .cmd (.createConnection rnd ..), k, a => a = rnd k
  | .cmd (.extendedCreateConnection rnd ..), k, a => a = rnd k
  | .receive rnd _ _, k, a => a = rnd k
  | _, _, _ => False

end Verif.Ll
