import Verif.Addr.Model
/-!
# The simulated environment: devices, phys and packet delivery

Models `/repo/model/setup/test_model.cc`, `phy_layer.cc`, `phy_device.cc` and the identifier counter of
`/repo/model/devices/device.cc`.

Simplifications. A `PhyDevice` is created together with its entry in the device table and shares the identifier of
its `Device`, so one record `Dev` stands for both. `PhyLayer*` and `shared_ptr<PhyDevice>` are represented by the
identifier of the object they point to; the two agree as long as identifiers are not reused, which is proved
(C10). The iteration order of `std::map` and `std::unordered_set` is not represented: tables are lists in insertion
order. `Tick`, the timer and the text output of `List` are not modelled. A device that closes is removed by a task
scheduled later; the removal is the operation `removeDevice` (`OnConnectionClosed` tests for presence, and
`RemoveDevice` of an absent device changes nothing).
-/

namespace Verif.Phy
open Verif.Addr

/-- `Phy::Type`, include/phy.h. -/
inductive PhyType where
  | lowEnergy
  | brEdr
  deriving DecidableEq, Repr

/-- `PhyDevice`, phy_device.h:32-58, with the address of its `Device`. `phys` is the set `phy_layers_`. -/
structure Dev where
  id : Nat
  addr : Address
  phys : List Nat
  deriving DecidableEq, Repr

/-- `PhyLayer`, phy_layer.h:29-59. `members` is the list `phy_devices_`. -/
structure Phy where
  id : Nat
  type : PhyType
  members : List Nat
  deriving DecidableEq, Repr

/-- `TestModel`, test_model.h:105-122, with the two static identifier counters (device.cc:31-34,
test_model.cc:138) and the devices constructed but not added yet. -/
structure Model where
  devs : List Dev
  phys : List Phy
  loose : List (Nat × Address)
  nextDev : Nat
  nextPhy : Nat
  deriving DecidableEq, Repr

/-- Start-up. -/
def Model.init : Model := ⟨[], [], [], 0, 0⟩

/-- Address of a device that has not been configured, `Device::Device`, device.cc:36-38. -/
def defaultAddr : Address := ⟨0xAD, 0xBB, 0xBB, 0xBB, 0xBB, 0xBB⟩

/-- `instance_counter++` on a `uint32_t`, device.cc:32-33; `next_id++`, test_model.cc:139. -/
def bump (n : Nat) : Nat := (n + 1) % 2 ^ 32

/-- `PhyDevice::Register`, phy_device.cc:34: insertion in a set. -/
def Dev.register (p : Nat) (x : Dev) : Dev :=
  if p ∈ x.phys then x else { x with phys := p :: x.phys }

/-- `PhyDevice::Unregister`, phy_device.cc:36. -/
def Dev.unregister (p : Nat) (x : Dev) : Dev := { x with phys := x.phys.filter (· ≠ p) }

/-- Apply `f` to the device with identifier `d`. -/
def modDev (d : Nat) (f : Dev → Dev) (l : List Dev) : List Dev :=
  l.map (fun x => if x.id = d then f x else x)

/-- Apply `f` to the phy with identifier `p`. -/
def modPhy (p : Nat) (f : Phy → Phy) (l : List Phy) : List Phy :=
  l.map (fun y => if y.id = p then f y else y)

/-- `phy_devices_.find(device_id) != end()`. -/
def Model.hasDev (s : Model) (d : Nat) : Bool := s.devs.any (·.id = d)

/-- `phy_layers_.find(phy_id) != end()`. -/
def Model.hasPhy (s : Model) (p : Nat) : Bool := s.phys.any (·.id = p)

/-- `PhyLayer::Register`, phy_layer.cc:25-28: the list of the phy is appended to without looking whether the
device is there. -/
def register (s : Model) (d p : Nat) : Model :=
  { s with devs := modDev d (Dev.register p) s.devs, phys := modPhy p (fun y => { y with members := y.members ++ [d] }) s.phys }

/-- `PhyLayer::Unregister`, phy_layer.cc:30-38: acts only if the device is in the list; `std::list::remove` removes
every occurrence. -/
def unregister (s : Model) (d p : Nat) : Model :=
  if s.phys.any (fun y => y.id = p && d ∈ y.members) then
    { s with devs := modDev d (Dev.unregister p) s.devs, phys := modPhy p (fun y => { y with members := y.members.filter (· ≠ d) }) s.phys }
  else s

/-- `PhyLayer::UnregisterAll`, phy_layer.cc:40-45. -/
def unregisterAll (s : Model) (p : Nat) : Model :=
  let ms := (s.phys.filter (·.id = p)).flatMap (·.members)
  { s with devs := s.devs.map (fun x => if x.id ∈ ms then x.unregister p else x), phys := modPhy p (fun y => { y with members := [] }) s.phys }

/-- `phy_devices_[phy_device->id] = phy_device`, test_model.cc:121-126: an entry with the same identifier is
replaced. -/
def addDevice (s : Model) (d : Nat) (a : Address) : Model :=
  { s with devs := s.devs.filter (·.id ≠ d) ++ [⟨d, a, []⟩], loose := s.loose.filter (·.1 ≠ d) }

/-- `TestModel::RemoveDevice`, test_model.cc:129-134. -/
def removeDevice (s : Model) (d : Nat) : Model :=
  let s := (s.phys.map (·.id)).foldl (fun s p => unregister s d p) s
  { s with devs := s.devs.filter (·.id ≠ d) }

/-- `TestModel::AddPhy`, test_model.cc:137-142. -/
def addPhy (s : Model) (t : PhyType) : Model :=
  { s with phys := s.phys.filter (·.id ≠ s.nextPhy) ++ [⟨s.nextPhy, t, []⟩], nextPhy := bump s.nextPhy }

/-- `TestModel::RemovePhy`, test_model.cc:145-150. -/
def removePhy (s : Model) (p : Nat) : Model :=
  if s.hasPhy p then
    let s := unregisterAll s p
    { s with phys := s.phys.filter (·.id ≠ p) }
  else s

/-- `TestModel::AddDeviceToPhy`, test_model.cc:153-158. -/
def addDeviceToPhy (s : Model) (d p : Nat) : Model :=
  if s.hasPhy p && s.hasDev d then register s d p else s

/-- `TestModel::RemoveDeviceFromPhy`, test_model.cc:161-165. -/
def removeDeviceFromPhy (s : Model) (d p : Nat) : Model :=
  if s.hasPhy p then unregister s d p else s

/-- Registration of a new device on the phys selected by `sel`: test_model.cc:173-177 and 203-205. -/
def registerOn (s : Model) (d : Nat) (sel : PhyType → Bool) : Model :=
  ((s.phys.filter (fun y => sel y.type)).map (·.id)).foldl (fun s p => register s d p) s

/-- The prefix of generated addresses, `bluetooth_address_prefix_`, and `reuse_device_addresses_`,
test_model.h:117-121. -/
structure Config where
  p0 : UInt8
  p1 : UInt8
  p2 : UInt8
  p3 : UInt8
  reuse : Bool

/-- The default of test_model.h:52 and 117. -/
def Config.default : Config := ⟨0xda, 0x4c, 0x10, 0xde, true⟩

/-- The address with a given number in its two low bytes, test_model.cc:94-101 and 106-107. The conversions to
`uint8_t` keep the low eight bits. -/
def numbered (c : Config) (n : Nat) : Address :=
  ⟨UInt8.ofNat n, UInt8.ofNat (n / 256), c.p3, c.p2, c.p1, c.p0⟩

/-- `std::any_of(... GetAddress() == address)`, test_model.cc:108-110. -/
def used (s : Model) (a : Address) : Bool := s.devs.any (·.addr = a)

/-- The loop test_model.cc:105-114 from `b`. `b0 <= 0xffff` holds for every `uint16_t`, so the loop leaves only by
`break`: after 65536 attempts all numbers have been tried and it can never end, which is `none`. -/
def search (c : Config) (s : Model) : Nat → Nat → Option Address
  | 0, _ => none
  | fuel + 1, b => if used s (numbered c b) then search c s fuel (b + 1) else some (numbered c b)

/-- `TestModel::GenerateBluetoothAddress`, test_model.cc:93-118. `none` is an endless loop. -/
def generate (c : Config) (s : Model) (d : Nat) : Option Address :=
  if c.reuse then search c s 65536 0 else some (numbered c d)

/-- The operations on the test model. -/
inductive Op where
  /-- A `Device` is constructed, device.cc:36-38; `a` is the address it is given before it is added, if any
  (`DeviceBoutique` devices take it from their arguments). -/
  | construct (a : Option Address)
  /-- `TestModel::AddDevice` of a constructed device. -/
  | addDevice (d : Nat)
  /-- `TestModel::AddLinkLayerConnection`, test_model.cc:167-184. -/
  | addLinkLayer (d : Nat) (t : PhyType)
  /-- `TestModel::AddHciConnection`, test_model.cc:194-213. -/
  | addHci (d : Nat) (a : Option Address)
  | removeDevice (d : Nat)
  | addPhy (t : PhyType)
  | removePhy (p : Nat)
  | addDeviceToPhy (d p : Nat)
  | removeDeviceFromPhy (d p : Nat)
  /-- `TestModel::SetDeviceAddress`, test_model.cc:222-226. -/
  | setAddress (d : Nat) (a : Address)
  /-- The task scheduled by `TestModel::Reset`, test_model.cc:268-274. -/
  | reset
  deriving Repr

/-- The address a constructed device has. -/
def looseAddr (s : Model) (d : Nat) : Option Address := (s.loose.find? (·.1 = d)).map (·.2)

/-- One operation; `none` is an endless loop. A device can only be passed to an `add` operation after it has been
constructed and only once (the callers create the device they add); other calls leave the state unchanged.
The argument of `value_or` in test_model.cc:197 is evaluated whether or not an address is given, so the search runs
in both cases. -/
def step (c : Config) (s : Model) : Op → Option Model
  | .construct a => some { s with loose := s.loose ++ [(s.nextDev, a.getD defaultAddr)], nextDev := bump s.nextDev }
  | .addDevice d =>
    match looseAddr s d with
    | none => some s
    | some a => some (addDevice s d a)
  | .addLinkLayer d t =>
    match looseAddr s d with
    | none => some s
    | some a => some (registerOn (addDevice s d a) d (· = t))
  | .addHci d a =>
    match looseAddr s d with
    | none => some s
    | some _ =>
      match generate c s d with
      | none => none
      | some g => some (registerOn (addDevice s d (a.getD g)) d (fun _ => true))
  | .removeDevice d => some (removeDevice s d)
  | .addPhy t => some (addPhy s t)
  | .removePhy p => some (removePhy s p)
  | .addDeviceToPhy d p => some (addDeviceToPhy s d p)
  | .removeDeviceFromPhy d p => some (removeDeviceFromPhy s d p)
  | .setAddress d a => some { s with devs := modDev d (fun x => { x with addr := a }) s.devs }
  | .reset =>
    let s := (s.phys.map (·.id)).foldl unregisterAll s
    some { s with devs := [] }

/-- A history of operations. -/
def run (c : Config) (s : Model) : List Op → Option Model
  | [] => some s
  | op :: ops => (step c s op).bind (fun s' => run c s' ops)

/-- `PhyLayer::Send`, phy_layer.cc:57-65: the receivers, in order. The packet and the computed RSSI are handed over
unchanged to `PhyDevice::Receive`. -/
def Phy.send (y : Phy) (sender : Nat) : List Nat := y.members.filter (fun d => sender ≠ d)

/-- `PhyDevice::Send`, phy_device.cc:58-64: the devices the packet is delivered to, one entry per delivery. -/
def send (s : Model) (d : Nat) (t : PhyType) : List Nat :=
  (s.devs.filter (·.id = d)).flatMap fun x =>
    x.phys.flatMap fun p =>
      (s.phys.filter (fun y => y.id = p && y.type = t)).flatMap (·.send d)

end Verif.Phy
