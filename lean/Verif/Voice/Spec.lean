/-!
# What the host may ask for in the enhanced synchronous connection commands

Core Specification, Vol 4, Part E, 7.1.45 and 7.1.46.
-/
namespace Verif.Voice

/-- A coding format: the format, the company and its codec. -/
structure Coding where
  format : UInt8
  company : UInt16
  codec : UInt16
  deriving DecidableEq, Repr

/-- The parameters of the two commands, but for the frame sizes, the sample sizes and formats and the transport units. -/
structure Params where
  txBandwidth : UInt32
  rxBandwidth : UInt32
  txCoding : Coding
  rxCoding : Coding
  inBandwidth : UInt32
  outBandwidth : UInt32
  inCoding : Coding
  outCoding : Coding
  inPath : UInt8
  outPath : UInt8
  maxLatency : UInt16
  packetType : UInt16
  effort : UInt8
  deriving DecidableEq, Repr

/-- `transparent`, Assigned Numbers, coding formats. -/
def transparentFormat : UInt8 := 3

/-- What the host shall do. -/
structure Legal (p : Params) : Prop where
  /-- "The Host shall set the Transmit_Coding_Format and Receive_Coding_Formats to be equal." -/
  air : p.txCoding = p.rxCoding
  /-- "The Host shall set the Input_Coding_Format and Output_Coding_Format to be equal." -/
  host : p.inCoding = p.outCoding
  /-- "The Host shall either set the Input_Bandwidth and Output_Bandwidth to be equal, or shall set one of them to be
  zero and the other non-zero." -/
  bandwidth : p.inBandwidth = p.outBandwidth ∨ (p.inBandwidth = 0 ∧ p.outBandwidth ≠ 0) ∨ (p.inBandwidth ≠ 0 ∧ p.outBandwidth = 0)
  /-- "Either both the Transmit_Coding_Format and Input_Coding_Format shall be transparent or neither shall be." -/
  sent : p.txCoding.format = transparentFormat ↔ p.inCoding.format = transparentFormat
  /-- "If both are transparent, the Transmit_Bandwidth and the Input_Bandwidth shall be the same." -/
  sentBandwidth : p.txCoding.format = transparentFormat → p.txBandwidth = p.inBandwidth
  /-- "Either both the Receive_Coding_Format and Output_Coding_Format shall be transparent or neither shall be." -/
  received : p.rxCoding.format = transparentFormat ↔ p.outCoding.format = transparentFormat
  /-- "If both are transparent, the Receive_Bandwidth and the Output_Bandwidth shall be the same." -/
  receivedBandwidth : p.rxCoding.format = transparentFormat → p.rxBandwidth = p.outBandwidth

/-- The air mode of an event for a coding format: what is neither µ-law, A-law nor CVSD is coded by someone else, and
transparent to the controllers. -/
def airOfCoding (c : Coding) : Nat := if c.format.toNat < 3 then c.format.toNat else 3

end Verif.Voice
