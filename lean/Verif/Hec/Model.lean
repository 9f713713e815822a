/-!
# The header error check of the baseband sniffer

Models `/repo/model/devices/baseband_sniffer.cc:51-89` on fixed-width words.
-/

namespace Verif.Hec

/-- The table in `ReverseByte`, baseband_sniffer.cc:52-57. -/
def lookup : List UInt8 :=
  [0b0000, 0b1000, 0b0100, 0b1100, 0b0010, 0b1010, 0b0110, 0b1110,
   0b0001, 0b1001, 0b0101, 0b1101, 0b0011, 0b1011, 0b0111, 0b1111]

/-- `ReverseByte`, baseband_sniffer.cc:51-60. The table has 16 entries, so the indices are in range. -/
def reverseByte (b : UInt8) : UInt8 :=
  (lookup.getD (b &&& 0xF).toNat 0 <<< 4) ||| lookup.getD (b >>> 4).toNat 0

/-- One iteration of the loop, baseband_sniffer.cc:67-74: the feedback bit, then the shift of `value`. -/
def hecStep (value : UInt8) (bit : Bool) : UInt8 :=
  let fb := (value &&& 1 = 1) != bit
  if fb then (value >>> 1) ^^^ 0xe5 else value >>> 1

/-- The loop, baseband_sniffer.cc:67-74, for `n` iterations. -/
def hecLoop : Nat → UInt8 → UInt32 → UInt8
  | 0, v, _ => v
  | n + 1, v, d => hecLoop n (hecStep v (d &&& 1 = 1)) (d >>> 1)

/-- `HeaderErrorCheck`, baseband_sniffer.cc:62-77. -/
def hec (uap : UInt8) (data : UInt32) : UInt8 := hecLoop 10 (reverseByte uap) data

/-- `BuildBtPacketHeader`, baseband_sniffer.cc:79-89. -/
def buildHeader (uap ltAddr packetType : UInt8) (flow arqn seqn : Bool) : UInt32 :=
  let header : UInt32 := (ltAddr &&& 0x7).toUInt32 ||| ((packetType &&& 0xF).toUInt32 <<< 3) |||
    ((if flow then (1 : UInt32) else 0) <<< 7) ||| ((if arqn then (1 : UInt32) else 0) <<< 8) ||| ((if seqn then (1 : UInt32) else 0) <<< 9)
  header ||| ((hec uap header).toUInt32 <<< 10)

end Verif.Hec
