import Verif.Csr.Props
import Verif.Hci.Model

/-!
# The CSR command among the other commands

`Verif.Hci` has its own, coarser function for this command: what is sent, or that the process ends. It says the same.
-/
namespace Verif.Csr

/-- What `Verif.Hci` keeps of an outcome. -/
def seen : Outcome → Hci.CsrOut
  | .done _ .unknownCommand => .unknown
  | .done _ (.vendor e) => .answer e
  | .abort => .crash
  | .outOfBounds => .crash

theorem seen_complete (p : Props) (l : List UInt8) : seen (complete p l) = Hci.csrComplete l := by
  unfold complete Hci.csrComplete
  split <;> rfl

theorem readVarid_same (i : Nat) (v : List UInt8) : Hci.readVarid i v = readVarid i v := by
  unfold Hci.readVarid readVarid
  by_cases h : v.length < 2
  · simp [h, Nat.not_le.2 h]
  · simp [h, Nat.not_lt.1 h]

theorem readPskey_same (i : Nat) (v : List UInt8) : Hci.readPskey i v = readPskey i v := by
  unfold Hci.readPskey readPskey
  cases v with
  | nil => simp
  | cons a v =>
    cases v with
    | nil => simp
    | cons b v => simp [show ¬ v.length + 1 + 1 < 2 by omega]

theorem writePskey_same (i : Nat) (v : List UInt8) (p : Props) : Hci.writePskey i v = (writePskey i v p).isSome := by
  unfold Hci.writePskey writePskey
  by_cases h : i = 0xef
  · by_cases h8 : v.length < 8
    · simp [h, h8, Nat.not_le.2 h8]
    · simp [h, h8, Nat.not_lt.1 h8]
  · simp [h]

theorem le16_same (l : List UInt8) (i : Nat) : Hci.le16 l i = word l i := rfl

theorem first_same (l : List UInt8) : l.getD 0 0 ≠ 0xc2 ↔ octet l 0 ≠ 0xc2 := by
  refine not_congr ⟨fun h => by rw [octet, h]; rfl, fun h => UInt8.toNat_inj.1 h⟩

/-- The handler of the command sends what `Verif.Hci` says. -/
theorem C124_handler (p : Props) (l : List UInt8) : Hci.csr p.supported l = seen (csr p l) := by
  have e5 : word l 3 + 65536 - 5 = word l 3 + (65536 - 5) := by omega
  simp only [Hci.csr, csr, le16_same, first_same, e5, readVarid_same, readPskey_same, writePskey_same _ _ p]
  split
  · rfl
  split
  · rw [seen_complete]
  split
  · rw [seen_complete]
  split
  · rw [seen_complete]
  split
  · unfold storeCommand
    simp only
    split
    · rw [seen_complete]
    split
    · cases readPskey (word l 11) ((l.drop 17).take (2 * word l 13 % 65536)) with
      | none => rfl
      | some w => simp only [seen_complete]; rfl
    · cases writePskey (word l 11) ((l.drop 17).take (2 * word l 13 % 65536)) p with
      | none => rfl
      | some w => simp only [seen_complete]; rfl
  · unfold varCommand
    simp only
    split
    · cases readVarid (word l 7) ((l.drop 11).take (2 * (word l 3 + (65536 - 5)) % 65536)) with
      | none => rfl
      | some w => simp only [seen_complete]; rfl
    · rw [seen_complete]

example : Hci.csr true readBuild.wire = .answer readBuild.answer.wire := by decide

end Verif.Csr
