/-!
# Requests of the CSR protocol

What a host means by the parameters of the CSR vendor command, as in the comment dual_mode_controller.cc 3134-3149 and in
the implementation of BlueZ: the octet c2, then words in little endian order. Nothing here is taken from the model.
-/
namespace Verif.Csr

/-- What is read or written: a variable, or a key of the persistent store. -/
inductive Target
  | var (id : Nat)
  | key (id stores : Nat)
  deriving DecidableEq, Repr

/-- A request, or the answer to one. -/
structure Request where
  action : Nat
  seq : Nat
  pad : Nat
  target : Target
  value : List UInt8
  deriving DecidableEq, Repr

/-- A word, low octet first. -/
def wordLe (n : Nat) : List UInt8 := [UInt8.ofNat n, UInt8.ofNat (n / 256)]

/-- What follows the header of five words. -/
def Request.body (r : Request) : List UInt8 :=
  match r.target with
  | .var _ => r.value
  | .key id stores => wordLe id ++ wordLe (r.value.length / 2) ++ wordLe stores ++ r.value

/-- The persistent store is the variable 7003. -/
def Request.varid (r : Request) : Nat :=
  match r.target with
  | .var id => id
  | .key .. => 0x7003

/-- The octets of a request. The second word counts the words. -/
def Request.wire (r : Request) : List UInt8 :=
  0xc2 :: (wordLe r.action ++ wordLe (5 + r.body.length / 2) ++ wordLe r.seq ++ wordLe r.varid ++ wordLe r.pad ++ r.body)

/-- A request that can be sent: whole words only, and at most the 255 octets of a command. -/
structure Request.Ok (r : Request) : Prop where
  action : r.action < 65536
  varid : r.varid < 65536
  var : ∀ id, r.target = .var id → id ≠ 0x7003
  key : ∀ id stores, r.target = .key id stores → id < 65536
  even : r.value.length % 2 = 0
  short : r.value.length ≤ 238

/-- What the tester's dongle answers when this is read: its build, the two lengths of an encryption key, and its version.
Nothing else is known. -/
def known : Target → List UInt8
  | .var id => if id = 0x2819 then [0xe8, 0x30] else []
  | .key id _ => if id = 0xda then [7] else if id = 0xdb then [16] else if id = 0x10d then [8, 8] else []

/-- Whether the request sets the features. -/
def Request.setsFeatures (r : Request) : Bool :=
  r.action != 0 && match r.target with
    | .key id _ => id == 0xef
    | .var _ => false

/-- How many octets the value must have for the request to make sense. -/
def Request.need (r : Request) : Nat :=
  if r.action = 0 then (known r.target).length else if r.setsFeatures then 8 else 0

/-- The answer: the action is 1; when a known thing is read, its value is put in. -/
def Request.answer (r : Request) : Request :=
  { r with action := 1, value := if r.action = 0 then known r.target ++ r.value.drop (known r.target).length else r.value }

/-- The octets of a number, low octet first. -/
def octetsLe : Nat → Nat → List UInt8
  | 0, _ => []
  | n + 1, x => UInt8.ofNat x :: octetsLe n (x / 256)

/-- The eight octets of the features after some requests: the last ones written, or those there before. -/
def featuresAfter (before : List UInt8) : List Request → List UInt8
  | [] => before
  | r :: rs => featuresAfter (if r.setsFeatures then r.value.take 8 else before) rs

end Verif.Csr
