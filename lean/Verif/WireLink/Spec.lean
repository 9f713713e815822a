import Verif.WireLink.Model
import Verif.Wire.Spec

/-!
# The octets of commands about LE connections (C130)

Bluetooth Core Specification, Volume 4, Part E, sections 5.4.1, 7.1.23, 7.3.1, 7.3.69, 7.7.14, 7.7.15 and 7.8: which octets a
host sends for a command, and which octets answer it. Of the model only the type of calls is used. This file does not refer to
the packet description files.
-/
namespace Verif.WireLink

open Verif.Wire (le yes ofData)

/-- Parameters that make no difference to this controller: the PHY_Options of LE Set PHY, and the Min_CE_Length and
Max_CE_Length of LE Connection Update. -/
structure Unused where
  options : Nat
  minCe : Nat
  maxCe : Nat

/-- They have two octets each. -/
def Unused.Fits (u : Unused) : Prop := u.options < 65536 ∧ u.minCe < 65536 ∧ u.maxCe < 65536

/-- Volume 1, Part F, 1.3: the error codes. -/
def ofReason : Sub.Status → Nat
  | .success => 0x00
  | .unsupportedValue => 0x11
  | .invalidParameters => 0x12
  | .unsupportedRemote => 0x1a
  | .invalidLlParameters => 0x1e
  | .other n => n

/-- One octet, and `other` only for those that have no name of their own. -/
def Known : Sub.Status → Prop
  | .other n => n < 256 ∧ n ≠ 0x00 ∧ n ≠ 0x11 ∧ n ≠ 0x12 ∧ n ≠ 0x1a ∧ n ≠ 0x1e
  | _ => True

/-- The opcodes. 0 for what is not a command. -/
def number : Call → Nat
  | .link (.setDefaultPhy _ _ _ _) => 0x2031
  | .link (.setPhy _ _ _ _ _) => 0x2032
  | .link (.enable _ _ _ _) => 0x2019
  | .link (.reply _ _) => 0x201a
  | .link (.negative _) => 0x201b
  | .link (.readFeatures _) => 0x2016
  | .link (.readVersion _) => 0x041d
  | .link (.setMask _) => 0x0c01
  | .link (.setMask2 _) => 0x0c63
  | .link (.setLeMask _) => 0x2001
  | .sub _ (.subrateRequest _ _ _ _ _) => 0x207e
  | .sub _ (.connectionUpdate _ _ _ _) => 0x2013
  | .sub _ (.paramReply _ _ _ _ _ _) => 0x2020
  | .sub _ (.paramRefuse _) => 0x2021
  | .subrate _ _ _ _ _ => 0x207d
  | .link (.acl _ _ _ _) => 0

/-- The parameters of the commands. -/
def parameters (u : Unused) : Call → List Nat
  -- 7.8.48
  | .link (.setDefaultPhy a b t r) => [yes a + 2 * yes b, t, r]
  -- 7.8.49
  | .link (.setPhy h a b t r) => le 2 h ++ [yes a + 2 * yes b, t, r] ++ le 2 u.options
  -- 7.8.24
  | .link (.enable h x e k) => le 2 h ++ ofData x ++ le 2 e ++ ofData k
  -- 7.8.25
  | .link (.reply h k) => le 2 h ++ ofData k
  -- 7.8.26
  | .link (.negative h) => le 2 h
  -- 7.8.21
  | .link (.readFeatures h) => le 2 h
  -- 7.1.23
  | .link (.readVersion h) => le 2 h
  -- 7.3.1
  | .link (.setMask m) => le 8 m
  -- 7.3.69
  | .link (.setMask2 m) => le 8 m
  -- 7.8.1
  | .link (.setLeMask m) => le 8 m
  -- 7.8.124
  | .sub h (.subrateRequest x y l c t) => le 2 h ++ le 2 x ++ le 2 y ++ le 2 l ++ le 2 c ++ le 2 t
  -- 7.8.18
  | .sub h (.connectionUpdate x y l t) => le 2 h ++ le 2 x ++ le 2 y ++ le 2 l ++ le 2 t ++ le 2 u.minCe ++ le 2 u.maxCe
  -- 7.8.31
  | .sub h (.paramReply x y l t m n) => le 2 h ++ le 2 x ++ le 2 y ++ le 2 l ++ le 2 t ++ le 2 m ++ le 2 n
  -- 7.8.32
  | .sub h (.paramRefuse q) => le 2 h ++ [ofReason q]
  -- 7.8.123
  | .subrate x y l c t => le 2 x ++ le 2 y ++ le 2 l ++ le 2 c ++ le 2 t
  | .link (.acl _ _ _ _) => []

/-- 5.4.1: the opcode, the length of the parameters, the parameters. -/
def octetsOf (u : Unused) (c : Call) : List Nat := le 2 (number c) ++ [(parameters u c).length] ++ parameters u c

/-- A command whose parameters fit the octets they have. A handle has 12 bits; Read Remote Version Information names an LE
connection; three PHYs are defined; a random number has 8 octets and a key 16. -/
def Sendable (u : Unused) (c : Call) : Prop := match c with
  | .link (.setDefaultPhy _ _ t r) => t < 8 ∧ r < 8
  | .link (.setPhy h _ _ t r) => h < 4096 ∧ t < 8 ∧ r < 8 ∧ u.Fits
  | .link (.enable h x e k) => h < 4096 ∧ e < 65536 ∧ x.length = 8 ∧ k.length = 16
  | .link (.reply h k) => h < 4096 ∧ k.length = 16
  | .link (.negative h) => h < 4096
  | .link (.readFeatures h) => h < 4096
  | .link (.readVersion h) => 0x200 ≤ h ∧ h < 0x300
  | .link (.setMask m) => m < 18446744073709551616
  | .link (.setMask2 m) => m < 18446744073709551616
  | .link (.setLeMask m) => m < 18446744073709551616
  | .sub h (.subrateRequest x y l c t) => h < 4096 ∧ x < 65536 ∧ y < 65536 ∧ l < 65536 ∧ c < 65536 ∧ t < 65536
  | .sub h (.connectionUpdate x y l t) => h < 4096 ∧ x < 65536 ∧ y < 65536 ∧ l < 65536 ∧ t < 65536 ∧ u.Fits
  | .sub h (.paramReply x y l t m n) => h < 4096 ∧ x < 65536 ∧ y < 65536 ∧ l < 65536 ∧ t < 65536 ∧ m < 65536 ∧ n < 65536
  | .sub h (.paramRefuse q) => h < 4096 ∧ Known q
  | .subrate x y l c t => x < 65536 ∧ y < 65536 ∧ l < 65536 ∧ c < 65536 ∧ t < 65536
  | .link (.acl _ _ _ _) => False

/-- 7.7.14: Command Complete with these return values. -/
def completed (c : Call) (ret : List Nat) : List Nat := [0x0e, 3 + ret.length, 1] ++ le 2 (number c) ++ ret

/-- 7.7.15: Command Status. -/
def statusOf (c : Call) (st : Nat) : List Nat := [0x0f, 4] ++ le 1 st ++ [1] ++ le 2 (number c)

/-- The event that answers a command, with the status: Command Complete with the status and the handle if the command is an
answer of the host, Command Complete with the status for settings, Command Status for procedures. -/
def answerOf (st : Nat) (c : Call) : List Nat := match c with
  | .link (.setDefaultPhy _ _ _ _) => completed c (le 1 st)
  | .link (.reply h _) => completed c (le 1 st ++ le 2 h)
  | .link (.negative h) => completed c (le 1 st ++ le 2 h)
  | .link (.setMask _) => completed c (le 1 st)
  | .link (.setMask2 _) => completed c (le 1 st)
  | .link (.setLeMask _) => completed c (le 1 st)
  | .sub h (.paramReply _ _ _ _ _ _) => completed c (le 1 st ++ le 2 h)
  | .sub h (.paramRefuse _) => completed c (le 1 st ++ le 2 h)
  | .subrate _ _ _ _ _ => completed c (le 1 st)
  | _ => statusOf c st

end Verif.WireLink
