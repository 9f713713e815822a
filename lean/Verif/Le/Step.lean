import Verif.Le.Adv
/-!
# LE command layer: the transition system

All LE commands of this model, the clock tick and the other transitions of
`LeController` that write the same state, as one step function.
-/

namespace Verif.Le

/-- The LE commands. Random numbers drawn by a handler are part of the command. -/
inductive Cmd where
  | setRandomAddress (a : Address)
  | setRpaTimeout (t : Nat)
  | addResolving (t : PeerAddressType) (a : Address) (peerIrk localIrk : Irk)
  | removeResolving (t : PeerAddressType) (a : Address)
  | clearResolving
  | setAddressResolutionEnable (enable : Bool)
  | setPrivacyMode (t : PeerAddressType) (a : Address) (m : PrivacyMode)
  | clearFilterAccept
  | addFilterAccept (t : FalAddressType) (a : Address)
  | removeFilterAccept (t : FalAddressType) (a : Address)
  | addPeriodicAdvertiser (e : PalEntry)
  | removePeriodicAdvertiser (e : PalEntry)
  | clearPeriodicAdvertiser
  | createSync (o : SyncOptions) (adv : PalEntry) (timeout cteType : Nat)
  | createSyncCancel
  | terminateSync (h : Nat)
  | setScanParameters (t : ScanType) (interval window : Nat) (own : OwnAddressType)
      (policy : ScanFilterPolicy)
  | setScanEnable (enable filterDuplicates : Bool)
  | setExtendedScanParameters (own : OwnAddressType) (policy : ScanFilterPolicy) (phys : UInt8)
      (params : List ScanPhyParams)
  | setExtendedScanEnable (now : Nat) (enable : Bool) (fd : FilterDuplicates) (duration period : Nat)
  | createConnection (rnd : Irk → Address) (policy : InitiatorFilterPolicy) (peer : AddressWithType)
      (own : OwnAddressType) (p : ConnParams)
  | createConnectionCancel
  | extendedCreateConnection (rnd : Irk → Address) (policy : InitiatorFilterPolicy)
      (own : OwnAddressType) (peer : AddressWithType) (phys : UInt8) (params : List ConnParams)
  | setAdvertisingParameters (p : LegacyParams)
  | setAdvertisingData (d : List UInt8)
  | setScanResponseData (d : List UInt8)
  | setAdvertisingEnable (now : Nat) (rnd : Nat → Irk → Address) (enable : Bool)
  | setAdvertisingSetRandomAddress (h : UInt8) (a : Address)
  | setExtAdvertisingParameters (h : UInt8) (p : ExtParams)
  | setExtAdvertisingData (h : UInt8) (op : Operation) (d : List UInt8)
  | setExtScanResponseData (h : UInt8) (op : Operation) (d : List UInt8)
  | setExtAdvertisingEnable (now : Nat) (rnd : Nat → Irk → Address) (enable : Bool)
      (sets : List EnabledSet)
  | removeAdvertisingSet (h : UInt8)
  | clearAdvertisingSets
  | setPeriodicParameters (h : UInt8) (imin imax : Nat)
  | setPeriodicData (h : UInt8) (op : Operation) (d : List UInt8)
  | setPeriodicEnable (now : Nat) (enable includeAdi : Bool) (h : UInt8)

/-- What a command leaves: a state and a status, or undefined behaviour. -/
inductive Result where
  | ret (s : State) (e : Status)
  | ub

/-- Result of a handler that always returns. -/
def Result.of (r : State × Status) : Result := .ret r.1 r.2

/-- Run one command. -/
def runCmd (cfg : Config) (s : State) : Cmd → Result
  | .setRandomAddress a => .of (Le.setRandomAddress s a)
  | .setRpaTimeout t => .of (Le.setRpaTimeout s t)
  | .addResolving t a pk lk => .of (Le.addResolving cfg s t a pk lk)
  | .removeResolving t a => .of (Le.removeResolving s t a)
  | .clearResolving => .of (Le.clearResolving s)
  | .setAddressResolutionEnable e => .of (Le.setAddressResolutionEnable s e)
  | .setPrivacyMode t a m => .of (Le.setPrivacyMode s t a m)
  | .clearFilterAccept => .of (Le.clearFilterAccept s)
  | .addFilterAccept t a => .of (Le.addFilterAccept cfg s t a)
  | .removeFilterAccept t a => .of (Le.removeFilterAccept s t a)
  | .addPeriodicAdvertiser e => .of (Le.addPeriodicAdvertiser cfg s e)
  | .removePeriodicAdvertiser e => .of (Le.removePeriodicAdvertiser s e)
  | .clearPeriodicAdvertiser => .of (Le.clearPeriodicAdvertiser s)
  | .createSync o a t c => .of (Le.createSync cfg s o a t c)
  | .createSyncCancel => .of (Le.createSyncCancel s)
  | .terminateSync h => .of (Le.terminateSync s h)
  | .setScanParameters t i w o p => .of (Le.setScanParameters s t i w o p)
  | .setScanEnable e f => .of (Le.setScanEnable s e f)
  | .setExtendedScanParameters o p ph ps => .of (Le.setExtendedScanParameters cfg s o p ph.toNat ps)
  | .setExtendedScanEnable now e fd d p => .of (Le.setExtendedScanEnable now s e fd d p)
  | .createConnection rnd pol peer own p => .of (Le.createConnection rnd s pol peer own p)
  | .createConnectionCancel => .of (Le.createConnectionCancel s)
  | .extendedCreateConnection rnd pol own peer ph ps =>
      .of (Le.extendedCreateConnection rnd s pol own peer ph.toNat ps)
  | .setAdvertisingParameters p => .of (Le.setAdvertisingParameters s p)
  | .setAdvertisingData d => .of (Le.setAdvertisingData s d)
  | .setScanResponseData d => .of (Le.setScanResponseData s d)
  | .setAdvertisingEnable now rnd e => .of (Le.setAdvertisingEnable cfg now rnd s e)
  | .setAdvertisingSetRandomAddress h a => .of (Le.setAdvertisingSetRandomAddress s h a)
  | .setExtAdvertisingParameters h p => .of (Le.setExtAdvertisingParameters cfg s h p)
  | .setExtAdvertisingData h op d => .of (Le.setExtAdvertisingData cfg s h op d)
  | .setExtScanResponseData h op d => .of (Le.setExtScanResponseData cfg s h op d)
  | .setExtAdvertisingEnable now rnd e sets =>
      match Le.setExtAdvertisingEnable cfg now rnd s e sets with
      | some r => .of r
      | none => .ub
  | .removeAdvertisingSet h => .of (Le.removeAdvertisingSet s h)
  | .clearAdvertisingSets => .of (Le.clearAdvertisingSets s)
  | .setPeriodicParameters h a b => .of (Le.setPeriodicParameters s h a b)
  | .setPeriodicData h op d => .of (Le.setPeriodicData cfg s h op d)
  | .setPeriodicEnable now e ia h => .of (Le.setPeriodicEnable cfg now s e ia h)

/-- The other transitions that write the state of this model. -/
inductive Env where
  /-- `Tick` (le_controller.cc 6323-6327). -/
  | tick (now : Nat)
  /-- A CONNECT_IND is accepted by the legacy advertiser (le_controller.cc 5692). -/
  | legacyConnected
  /-- A CONNECT_IND is accepted by an advertising set (le_controller.cc 5778). -/
  | extendedConnected (h : UInt8)
  /-- The initiator sends a connect request (le_controller.cc 4755-4756, 5171-5172). -/
  | connectRequested (a : AddressWithType) (own : Address)
  /-- The initiator's connection is complete (le_controller.cc 5858-5859). -/
  | initiatorConnected
  /-- A connection was created with the address of the initiator (le_controller.cc
  5591-5593). -/
  | initiatingAddressCleared
  /-- A pending synchronization is established (le_controller.cc 5268-5293); the
  handle is the first free one counting up from 0. -/
  | syncEstablished (now : Nat) (adv : PalEntry)
  /-- A peer address was resolved (le_controller.cc 268-288). -/
  | resolved (rpa : Address) (irk : Irk)
  /-- An address was generated for a peer (le_controller.cc 4578, 4728, 4996, 5144). -/
  | rpaGenerated (rnd : Irk → Address) (peer : AddressWithType)
  /-- `Reset` (le_controller.cc 6577-6621). -/
  | reset

/-- The handle search of le_controller.cc 5267-5270: the first number from `h` on
that is not a key, looking at most `fuel` numbers ahead. One more than the number of
keys is always enough. -/
def freeSyncHandle (m : List (Nat × Synchronized)) : Nat → Nat → Nat
  | 0, h => h
  | fuel + 1, h => if (mapFind m h).isSome then freeSyncHandle m fuel (h + 1) else h

/-- Result of an environment step. -/
inductive EnvResult where
  | ret (s : State) (out : List AdvOut)
  | fatal

/-- Run one environment step. -/
def runEnv (s : State) : Env → EnvResult
  | .tick now =>
    match advertising now s with
    | none => .fatal
    | some (s, out) => .ret (scanning now s).1 out
  | .legacyConnected => .ret { s with legacyAdv := { s.legacyAdv with enable := false } } []
  | .extendedConnected h =>
    match mapFind s.extAdv h with
    | none => .ret s []
    | some a => .ret { s with extAdv := mapSet s.extAdv h { a with enable := false } } []
  | .connectRequested a own =>
    .ret { s with initiator := { s.initiator with pendingConnectRequest := some a, initiatingAddress := own } } []
  | .initiatorConnected =>
    .ret { s with initiator := { s.initiator with pendingConnectRequest := none, enable := false } } []
  | .initiatingAddressCleared => .ret { s with initiator := { s.initiator with initiatingAddress := 0 } } []
  | .syncEstablished now adv =>
    match s.synchronizing with
    | none => .ret s []
    | some y =>
      let h := freeSyncHandle s.synchronized (s.synchronized.length + 1) 0
      .ret { s with synchronizing := none, synchronized := mapSet s.synchronized h ⟨adv, y.syncTimeout, now + y.syncTimeout⟩ } []
  | .resolved rpa irk =>
    .ret { s with resolvingList := modifyFirst (fun e => e.peerIrk == irk) (fun e => { e with peerRpa := some rpa }) s.resolvingList } []
  | .rpaGenerated rnd peer =>
    .ret { s with resolvingList := (generateRpa rnd peer .loc s.resolvingList).1 } []
  | .reset => .ret {} []

/-- One operation: a command or an environment step. -/
inductive Op where
  | cmd (c : Cmd)
  | env (e : Env)

/-- What happened: the new state, or the program is lost. -/
inductive Outcome where
  | ok (s : State) (status : Option Status) (out : List AdvOut)
  | ub
  | fatal

/-- One step of the LE controller. -/
def step (cfg : Config) (s : State) : Op → Outcome
  | .cmd c =>
    match runCmd cfg s c with
    | .ret s e => .ok s (some e) []
    | .ub => .ub
  | .env e =>
    match runEnv s e with
    | .ret s out => .ok s none out
    | .fatal => .fatal

/-- Run a list of operations; `none` once the program is lost. -/
def run (cfg : Config) : List Op → State → Option State
  | [], s => some s
  | o :: os, s =>
    match step cfg s o with
    | .ok s _ _ => run cfg os s
    | .ub => none
    | .fatal => none

/-- The state after construction (le_controller.h 720-990) is the default state,
unless the quirk `has_default_random_address` sets the random address
(le_controller.cc 3977-3980). -/
def initial (defaultRandomAddress : Option Address) : State :=
  { randomAddress := defaultRandomAddress.getD 0 }

/-- States reachable from construction by any sequence of operations. -/
def Reachable (cfg : Config) (s : State) : Prop :=
  ∃ a ops, run cfg ops (initial a) = some s

end Verif.Le
