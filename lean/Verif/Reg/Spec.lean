import Verif.Reg.Model
/-!
# What a host expects of the configuration parameters

Of the model only the names of the actions, parameters and answers are used. -/
namespace Verif.Reg

/-- What the host knows: the values of the parameters, the features it has switched on, the settings of its connections, and
which LE connections there are. -/
structure Host where
  value : Par → List Nat
  feature : Feature → Bool
  leFeature : Nat → Bool
  policy : Nat → Option Nat
  le : List Nat

/-- The default values of the parameters (Bluetooth Core, Vol 4, Part E, 6). -/
def default : Par → List Nat
  | .authenticationEnable => [0]
  | .classOfDevice => [0]
  | .pageTimeout => [0x2000]
  | .connectionAcceptTimeout => [0x1fa0]
  | .defaultLinkPolicy => [0]
  | .localName => List.replicate 248 0
  | .voiceSetting => [0x60]
  | .currentIacLap => [0x33]
  | .scanEnable => [0]
  | .scoFlowControl => [0]
  | .suggestedDataLength => [27, 328]
  | .loopbackMode => [0]
  | .inquiryMode => [0]
  | .pageScanType => [0]
  | .inquiryScanType => [0]
  | .pageScanActivity => [0x0800, 0x0012]
  | .inquiryScanActivity => [0x1000, 0x0012]

/-- After Reset. -/
def Host.reset : Host := ⟨default, fun _ => false, fun _ => false, fun _ => none, []⟩

/-- A value that the host may write. -/
def legal : Par → List Nat → Bool
  | .localName, v => v.length = 248
  | .currentIacLap, _ => true
  | .scanEnable, [x] => x ≤ 3
  | .scoFlowControl, [x] => x ≤ 1
  | .suggestedDataLength, [_, _] => true
  | .suggestedDataLength, _ => false
  | .pageScanActivity, [_, _] => true
  | .pageScanActivity, _ => false
  | .inquiryScanActivity, [_, _] => true
  | .inquiryScanActivity, _ => false
  | _, [_] => true
  | _, _ => false

/-- A value that the controller refuses, although it may be written. -/
def refused : Par → List Nat → Bool
  | .defaultLinkPolicy, [x] => 8 ≤ x
  | .suggestedDataLength, [o, t] => !(27 ≤ o && o ≤ 251 && 328 ≤ t && t ≤ 17040)
  | _, _ => false

/-- What is kept of a value: only as many inquiry access codes as the controller supports. -/
def keeps (iacs : Nat) : Par → List Nat → List Nat
  | .currentIacLap, v => v.take iacs
  | _, v => v

/-- The bit of a feature on page 1 of the features of the controller. -/
def Feature.bit : Feature → Nat
  | .simplePairing => 0
  | .leHost => 1
  | .secureConnections => 3

/-- Page 1 of the features. -/
def page1 (f : Feature → Bool) : Nat :=
  (if f .simplePairing then 1 else 0) + (if f .leHost then 2 else 0) + (if f .secureConnections then 8 else 0)

/-- The LE features with those of the host: isochronous streams, subrating and channel sounding. -/
def leWith (features : Nat) (f : Nat → Bool) : Nat :=
  features ||| ((if f 32 then 2 ^ 32 else 0) + (if f 38 then 2 ^ 38 else 0) + (if f 47 then 2 ^ 47 else 0))

/-- The commands that a controller in the local loopback mode executes; it sends back all others. -/
def inLoopback : Act → Bool
  | .reset | .write .loopbackMode _ | .read .loopbackMode | .connect _ | .disconnect _ | .leConnect _ | .leDisconnect _ => true
  | _ => false

/-- The answer the host expects, and what it knows afterwards. -/
def expect (c : Caps) (h : Host) (x : Act) : Res × Host :=
  if h.value .loopbackMode = [1] ∧ inLoopback x = false then (.looped, h)
  else match x with
    | .write p v =>
      if refused p v then (.answer 0x12 [], h)
      else (.answer 0 [], { h with value := fun q => if q = p then keeps c.iacs p v else h.value q })
    | .read p => (.answer 0 (h.value p), h)
    | .setFeature f on => (.answer 0 [], { h with feature := fun g => if g = f then on = 1 else h.feature g })
    | .readFeatures 0 => (.answer 0 [0, 2, c.page0], h)
    | .readFeatures 1 => (.answer 0 [1, 2, page1 h.feature], h)
    | .readFeatures 2 => (.answer 0 [2, 2, c.page2], h)
    | .readFeatures _ => (.answer 0x12 [], h)
    | .setLeFeature b v =>
      if 64 ≤ b ∨ 2 ≤ v then (.answer 0x12 [], h)
      else if h.le ≠ [] then (.answer 0x0c [], h)
      else if b = 32 ∨ b = 38 ∨ b = 47 then
        (.answer 0 [], { h with leFeature := fun k => if k = b then v = 1 else h.leFeature k })
      else (.answer 0x11 [], h)
    | .readLeFeatures => (.answer 0 [leWith c.leFeatures h.leFeature], h)
    | .soundingAllowed => (.answer (if h.leFeature 47 then 0 else 0x0c) [], h)
    | .readPolicy k => match h.policy k with
      | none => (.answer 0x02 [k, 0], h)
      | some v => (.answer 0 [k, v], h)
    | .writePolicy k v =>
      if h.policy k = none then (.answer 0x02 [k], h)
      else if 8 ≤ v then (.answer 0x12 [k], h)
      else (.answer 0 [k], { h with policy := fun j => if j = k then some v else h.policy j })
    | .reset => (.answer 0 [], .reset)
    | .connect k => (.none, { h with policy := fun j => if j = k then (h.value .defaultLinkPolicy).head? else h.policy j })
    | .disconnect k => (.none, { h with policy := fun j => if j = k then none else h.policy j })
    | .leConnect k => (.none, { h with le := k :: h.le })
    | .leDisconnect k => (.none, { h with le := h.le.filter (fun j => j ≠ k) })

/-- The answers the host expects. -/
def expected (c : Caps) (h : Host) : List Act → List Res
  | [] => []
  | x :: xs => (expect c h x).1 :: expected c (expect c h x).2 xs

/-- The host writes only values it may write. -/
def sound : Act → Bool
  | .write p v => legal p v
  | _ => true

/-- The actions for which the code does what the host expects. -/
def kept : Act → Bool
  | .read .inquiryMode | .read .pageScanType | .read .inquiryScanType | .read .pageScanActivity | .read .inquiryScanActivity => false
  | .readFeatures page => page ≤ 2
  | _ => true

end Verif.Reg
