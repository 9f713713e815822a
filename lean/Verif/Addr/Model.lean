/-!
# Bluetooth addresses

Models `/repo/include/hci/address.h` and `/repo/lib/hci/address.cc`.
A `std::string` is a list of characters, one `Char` per C++ `char`.
-/

namespace Verif.Addr

/-- `Address::address`, address.h:43: six bytes, little endian (`b5` is the most significant). -/
structure Address where
  b0 : UInt8
  b1 : UInt8
  b2 : UInt8
  b3 : UInt8
  b4 : UInt8
  b5 : UInt8
  deriving DecidableEq, Repr, Inhabited

/-- `Address::kEmpty`, address.cc:38. -/
def Address.empty : Address := ⟨0, 0, 0, 0, 0, 0⟩

/-- `Address::kAny`, address.cc:37. -/
def Address.any : Address := ⟨0xFF, 0xFF, 0xFF, 0xFF, 0xFF, 0xFF⟩

/-- The bytes of the array in index order. -/
def Address.toList (a : Address) : List UInt8 := [a.b0, a.b1, a.b2, a.b3, a.b4, a.b5]

/-- One hexadecimal digit as printed by `std::hex << std::nouppercase`. -/
def hexDigit (n : Nat) : Char :=
  ['0','1','2','3','4','5','6','7','8','9','a','b','c','d','e','f'].getD n '?'

/-- One byte printed with `setw(2)` and `setfill('0')`, address.cc:68. -/
def hexByte (b : UInt8) : List Char := [hexDigit (b.toNat / 16), hexDigit (b.toNat % 16)]

/-- `Address::ToString`, address.cc:65-74: bytes in reverse order, ':' between them. -/
def joinColon : List (List Char) → List Char
  | [] => []
  | [t] => t
  | t :: ts => t ++ ':' :: joinColon ts

/-- `Address::ToString`, address.cc:65-74. -/
def toString (a : Address) : List Char := joinColon (a.toList.reverse.map hexByte)

/-- C `isspace` in the "C" locale, used by `strtol`. -/
def isSpace (c : Char) : Bool :=
  c = ' ' || c = '\t' || c = '\n' || c = '\x0b' || c = '\x0c' || c = '\r'

/-- Value of a hexadecimal digit. -/
def hexVal (c : Char) : Option Nat :=
  if '0' ≤ c ∧ c ≤ '9' then some (c.toNat - '0'.toNat)
  else if 'a' ≤ c ∧ c ≤ 'f' then some (c.toNat - 'a'.toNat + 10)
  else if 'A' ≤ c ∧ c ≤ 'F' then some (c.toNat - 'A'.toNat + 10)
  else none

/-- Longest run of hexadecimal digits: value and number of digits. -/
def digits : List Char → Nat → Nat × Nat
  | [], acc => (acc, 0)
  | c :: cs, acc =>
    match hexVal c with
    | none => (acc, 0)
    | some v => let (r, n) := digits cs (acc * 16 + v); (r, n + 1)

/-- Number of leading white-space characters. -/
def countSpaces : List Char → Nat
  | [] => 0
  | c :: cs => if isSpace c then countSpaces cs + 1 else 0

/-- C library `strtol(s, &end, 16)`: the value and `end - s`. Tokens have two characters, so the
clamping of out-of-range values is not modelled. -/
def strtol16 (s : List Char) : Int × Nat :=
  let sp := countSpaces s
  let s1 := s.drop sp
  let (neg, sg) : Bool × Nat := match s1 with
    | '-' :: _ => (true, 1)
    | '+' :: _ => (false, 1)
    | _ => (false, 0)
  let s2 := s1.drop sg
  let px : Nat := match s2 with
    | '0' :: 'x' :: c :: _ => if (hexVal c).isSome then 2 else 0
    | '0' :: 'X' :: c :: _ => if (hexVal c).isSome then 2 else 0
    | _ => 0
  let (v, n) := digits (s2.drop px) 0
  if n = 0 then (0, 0) else (if neg then -(v : Int) else v, sp + sg + px + n)

/-- The tokens returned by successive `getline(stream, token, ':')`, address.cc:85: pieces between
colons, where a trailing colon does not start an empty piece and an empty stream has no piece. -/
def tokens : List Char → List (List Char)
  | [] => []
  | c :: cs =>
    if c = ':' then [] :: tokens cs
    else
      match cs, tokens cs with
      | [], _ => [[c]]
      | d :: _, ts =>
        if d = ':' then
          match ts with
          | _ :: rest => [c] :: rest
          | [] => [[c]]
        else
          match ts with
          | t :: rest => (c :: t) :: rest
          | [] => [[c]]

/-- Conversion of the `long` returned by `strtol` to `uint8_t`, address.cc:95. -/
def toByte (v : Int) : UInt8 := UInt8.ofNat (v % 256).toNat

/-- The body of the loop for one token, address.cc:90-103. -/
def parseField (t : List Char) : Option UInt8 :=
  if t.length ≠ 2 then none
  else
    let (v, n) := strtol16 t
    if n = 0 then none
    else if n ≠ t.length then none
    else some (toByte v)

/-- `addr.address.at(5 - index) = v`, address.cc:95. -/
def Address.setFromEnd (a : Address) (index : Nat) (v : UInt8) : Address :=
  match index with
  | 0 => { a with b5 := v }
  | 1 => { a with b4 := v }
  | 2 => { a with b3 := v }
  | 3 => { a with b2 := v }
  | 4 => { a with b1 := v }
  | _ => { a with b0 := v }

/-- The loop of `Address::FromString`, address.cc:81-112. -/
def parseLoop : List (List Char) → Nat → Address → Option Address
  | [], index, a => if index ≠ 6 then none else some a
  | t :: ts, index, a =>
    if index ≥ 6 then none
    else
      match parseField t with
      | none => none
      | some v => parseLoop ts (index + 1) (a.setFromEnd index v)

/-- `std::optional<Address> Address::FromString(const std::string&)`, address.cc:76-113. -/
def fromString (s : List Char) : Option Address :=
  if s.length ≠ 17 then none else parseLoop (tokens s) 0 Address.empty

/-- `bool Address::FromString(const std::string&, Address&)`, address.cc:115-123: the result and
the new value of `to`. -/
def fromStringInto (s : List Char) (_to : Address) : Bool × Address :=
  match fromString s with
  | none => (false, Address.empty)
  | some a => (true, a)

/-- `Address::IsValidAddress`, address.cc:130-132. -/
def isValidAddress (s : List Char) : Bool := (fromString s).isSome

end Verif.Addr
