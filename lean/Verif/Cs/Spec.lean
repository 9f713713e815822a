import Verif.Cs.Model
/-!
# What channel sounding should do

The specification of C40, C41 and C60: which channel maps are usable, and how the configurations of the
two ends of a connection should be related. -/
namespace Verif.Cs

/-- Channel `ch` of a map: bit `ch % 8` of octet `ch / 8`. -/
def on (m : ChannelMap) (ch : Nat) : Bool := (m.toList.getD (ch / 8) 0).getLsbD (ch % 8)

/-- The number of channels that are on. -/
def channels (m : ChannelMap) : Nat := (List.range 80).countP (on m)

/-- The channels that are never used for channel sounding. -/
def forbidden : List Nat := [0, 1, 23, 24, 25, 77, 78, 79]

/-- A usable channel map: at least 15 channels, and none of the forbidden ones. -/
def Usable (m : ChannelMap) : Prop := 15 ≤ channels m ∧ ∀ ch ∈ forbidden, on m ch = false

/-- The same, except that channel 79 may be on. -/
def AlmostUsable (m : ChannelMap) : Prop := 15 ≤ channels m ∧ ∀ ch ∈ forbidden, ch ≠ 79 → on m ch = false

instance (m : ChannelMap) : Decidable (Usable m) := inferInstanceAs (Decidable (_ ∧ _))
instance (m : ChannelMap) : Decidable (AlmostUsable m) := inferInstanceAs (Decidable (_ ∧ _))

/-- The role of the other side. -/
def opposite (role : Nat) : Nat := if role = 0 then 1 else 0

/-- The configuration an end holds under an identifier. -/
def End.config (e : End) (id : Nat) : Option Config := e.configs.find? (fun c => c.id == id)

/-- Both ends hold a configuration under an identifier, with the same settings and opposite roles. -/
def Agree (a b : End) (id : Nat) : Prop :=
  ∃ x y, a.config id = some x ∧ b.config id = some y ∧ x.s = y.s ∧ y.role = opposite x.role

/-- The events and commands of a host do not enable channel 79. -/
def Cmd.no79 : Cmd → Prop
  | .createConfig _ _ _ s _ => on s.map 79 = false
  | _ => True

/-- A step whose command, if it is one, does not enable channel 79. -/
def Act.no79 : Act → Prop
  | .cmdC c => c.no79
  | .cmdP c => c.no79
  | _ => True

/-- The PDUs of a peer, one after the other. -/
def receive (e : End) : List Pdu → Option End
  | [] => some e
  | d :: ds => match incoming e d with
    | .ok _ e' _ _ => receive e' ds
    | .abort => none

end Verif.Cs
