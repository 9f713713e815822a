import Verif.Hci.PropsConfig
import Verif.Pdl.LayoutsHci
/-! # C71: the bits of the supported commands

Each command has one bit of Read Local Supported Commands and each bit is that of one command; every command that is declared in
packets/hci_packets.pdl has one, except Read Local Supported Commands itself and the vendor commands; and the default controller
supports the commands it implements, with three exceptions. -/
namespace Verif.Hci

set_option maxRecDepth 100000 in
theorem table_one : indices.all (fun a => indices.all (fun b => (a.1 == b.1) == (a.2 == b.2))) = true := by decide +kernel

/-- C71. A command has one bit, and a bit one command. -/
theorem C71_bits {op op' i i' : Nat} (h : (op, i) ∈ indices) (h' : (op', i') ∈ indices) : op = op' ↔ i = i' := by
  have := (List.all_eq_true.mp ((List.all_eq_true.mp table_one) _ h)) _ h'
  simp only [beq_iff_eq] at this
  constructor
  · intro e
    have h1 : (op == op') = true := beq_iff_eq.mpr e
    exact beq_iff_eq.mp (this.symm.trans h1)
  · intro e
    have h1 : (i == i') = true := beq_iff_eq.mpr e
    exact beq_iff_eq.mp (this.trans h1)

example : ((0x0c03 : Nat), (57 : Nat)) ∈ indices ∧ ((0x2005 : Nat), (254 : Nat)) ∈ indices := by decide +kernel

/-- The opcode that tells a command packet from the others. -/
def packetOpcode (p : Pdl.Packet) : Option Nat := match p.levels with
  | ⟨_, (0, op) :: _⟩ :: _ => some op
  | _ => none

set_option maxRecDepth 100000 in
theorem table_declared : Pdl.Hci.packetsCommand.all (fun p => match packetOpcode p with
    | none => true
    | some op => op == 0x1002 || op >>> 10 == 0x3f || (indices.lookup op).isSome) = true := by decide +kernel

/-- C71. Every command of hci_packets.pdl has a bit; Read Local Supported Commands and the vendor commands need none. -/
theorem C71_declared {p : Pdl.Packet} {op : Nat} (hp : p ∈ Pdl.Hci.packetsCommand) (ho : packetOpcode p = some op)
    (h1 : op ≠ 0x1002) (h2 : op / 1024 ≠ 0x3f) : ∃ i, (op, i) ∈ indices := by
  have h := (List.all_eq_true.mp table_declared) _ hp
  rw [ho] at h
  simp only [Bool.or_eq_true, beq_iff_eq, h1, Nat.shiftRight_eq_div_pow, false_or] at h
  rcases h with h | h
  · exact absurd h h2
  · obtain ⟨i, hi⟩ := Option.isSome_iff_exists.mp h
    exact ⟨i, lookup_mem hi⟩

example : Pdl.Hci.packetsCommand.any (fun p => packetOpcode p == some 0x0c03) = true := by decide +kernel

/-- Implemented, but supported by no controller with the default commands: Set Min Encryption Key Size, LE Create BIG, LE
Terminate BIG. -/
def unused : List Nat := [0x0c84, 0x2068, 0x206a]

set_option maxRecDepth 100000 in
/-- C71. The default controller supports every command it implements, except those of `unused`. -/
theorem C71_usable (strict q k : Bool) {op : Nat} (hi : implemented op = true) (hu : op ∉ unused) :
    supported (Cfg.of .default plain strict q k) op = true := by
  have h : handlers.all (fun r => unused.contains r.1 || supported ⟨true, configured .default plain, false, false⟩ r.1) = true := by
    decide +kernel
  obtain ⟨l, hl⟩ := Option.isSome_iff_exists.mp hi
  have := (List.all_eq_true.mp h) _ (lookup_mem hl)
  simp only [Bool.or_eq_true, List.contains_iff_mem] at this
  rcases this with h1 | h1
  · exact absurd h1 hu
  · simpa [supported, Cfg.of] using h1

example : implemented 0x0c01 = true ∧ (0x0c01 : Nat) ∉ unused := by decide +kernel

set_option maxRecDepth 100000 in
/-- C71. The exceptions are real: these three are implemented and answered as unknown commands. -/
theorem C71_unused (strict q k : Bool) : ∀ op ∈ unused,
    implemented op = true ∧ supported (Cfg.of .default plain strict q k) op = false := by
  have h : unused.all (fun op => implemented op && !supported ⟨true, configured .default plain, false, false⟩ op) = true := by
    decide +kernel
  intro op ho
  have h1 := (List.all_eq_true.mp h) _ ho
  rw [Bool.and_eq_true, Bool.not_eq_true'] at h1
  exact h1

end Verif.Hci
