/-!
# Data packets, octet by octet

Core Specification, Volume 4, Part E, § 5.4.2 and 5.4.3: an ACL data packet begins with the connection handle (12 bits), the packet
boundary flag (2 bits) and the broadcast flag (2 bits), all in the first two octets, least significant octet first, and the length of
the data in the next two. A synchronous data packet has the status in the place of the boundary flag, two bits that are reserved,
and one octet for the length. § 7.7.19: Number Of Completed Packets is event 0x13.
-/
namespace Verif.Flow

/-- Octets. -/
def Octets (l : List Nat) : Prop := ∀ x ∈ l, x < 256

/-- The ACL data packet. -/
def aclOctets (handle pb bc : Nat) (data : List Nat) : List Nat :=
  [handle % 256, handle / 256 + 16 * pb + 64 * bc, data.length % 256, data.length / 256] ++ data

/-- The synchronous data packet. -/
def scoOctets (handle status : Nat) (data : List Nat) : List Nat :=
  [handle % 256, handle / 256 + 16 * status, data.length] ++ data

/-- The fields are in their ranges. -/
def AclFields (handle pb bc : Nat) (data : List Nat) : Prop :=
  handle < 4096 ∧ pb < 4 ∧ bc < 4 ∧ data.length < 65536 ∧ Octets data
def ScoFields (handle status : Nat) (data : List Nat) : Prop :=
  handle < 4096 ∧ status < 4 ∧ data.length < 256 ∧ Octets data

/-- A command: the code, the length of the parameters, the parameters. -/
def commandOctets (op : Nat) (parameters : List Nat) : List Nat :=
  [op % 256, op / 256, parameters.length] ++ parameters

/-- One packet of the connection is completed. -/
def completedOctets (handle : Nat) : List Nat := [0x13, 5, 1, handle % 256, handle / 256, 1, 0]

/-- An address on the air: six octets, the least significant one first. -/
def addressOctets (a : Nat) : List Nat :=
  [a % 256, a / 256 % 256, a / 65536 % 256, a / 16777216 % 256, a / 4294967296 % 256, a / 1099511627776]

/-- The connection handle of the ACL data packet that the octets begin with, if they do. -/
def aclHandle : List Nat → Option Nat
  | a :: b :: c :: d :: r => if c + 256 * d ≤ r.length then some (a + 256 * (b % 16)) else none
  | _ => none

/-- Its broadcast flag. -/
def aclBroadcast : List Nat → Nat
  | _ :: b :: _ => b / 64
  | _ => 0

/-- The connection handle of the synchronous data packet that the octets begin with. -/
def scoHandle : List Nat → Option Nat
  | a :: b :: c :: r => if c ≤ r.length then some (a + 256 * (b % 16)) else none
  | _ => none

/-- The code and the parameters of the command that the octets begin with. -/
def commandOf : List Nat → Option (Nat × List Nat)
  | a :: b :: n :: r => if n ≤ r.length then some (a + 256 * b, r.take n) else none
  | _ => none

end Verif.Flow
