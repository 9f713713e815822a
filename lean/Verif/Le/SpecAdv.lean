import Verif.Le.Step
/-!
# Advertising sets: specification (C19, C20)
-/

namespace Verif.Le

/-! ### Limits (Bluetooth Core, Vol 4, Part E, 7.8.53 and Vol 6, Part B, 2.3) -/

/-- The longest advertising data a set with these properties can send. -/
def dataLimit (p : EventProperties) : Nat :=
  match p.legacy, p.directed, p.scannable, p.connectable with
  | true, true, _, _ => 0
  | true, false, _, _ => 31
  | false, _, true, _ => 0
  | false, _, false, false => 1650
  | false, true, false, true => if p.includeTxPower then 239 else 240
  | false, false, false, true => if p.includeTxPower then 245 else 246

/-- The longest scan response data a set with these properties can send. -/
def scanResponseLimit (p : EventProperties) : Nat :=
  match p.scannable, p.legacy with
  | false, _ => 0
  | true, true => 31
  | true, false => 1650

/-- The event properties the advertising routine understands: the five legacy
advertising events, or an extended advertising event that is not both connectable and
scannable and is not high duty cycle connectable directed. -/
def Understood (p : EventProperties) : Prop :=
  (p.legacy = true → p.anonymous = false ∧ p.includeTxPower = false ∧
    ((p.connectable, p.scannable, p.directed, p.highDutyCycle) ∈
      [(true, true, false, false), (true, false, true, true), (true, false, true, false),
       (false, true, false, false), (false, false, false, false)])) ∧
  (p.legacy = false → ¬ (p.connectable = true ∧ p.scannable = true) ∧
    ¬ (p.connectable = true ∧ p.directed = true ∧ p.highDutyCycle = true))

/-! ### Data histories -/

/-- The accepted data operations, the latest first. -/
abbrev Hist := List (Operation × List UInt8)

/-- Operations that start the data afresh. -/
def Operation.restarts (op : Operation) : Bool :=
  op == .firstFragment || op == .completeAdvertisement

/-- The concatenation of the fragments since the last first fragment or complete data. -/
def assembled : Hist → List UInt8
  | [] => []
  | (op, d) :: older => if op.restarts then d else assembled older ++ d

/-- More fragments are to come: the last operation that brought data was a first or
intermediate fragment. -/
def incomplete : Hist → Bool
  | [] => false
  | (.unchangedData, _) :: older => incomplete older
  | (op, _) :: _ => op == .firstFragment || op == .intermediateFragment

/-- The histories of the three kinds of data of every advertising set. -/
structure Ghost where
  data : UInt8 → Hist := fun _ => []
  scan : UInt8 → Hist := fun _ => []
  periodic : UInt8 → Hist := fun _ => []

/-- Change a history. -/
def updateHist (f : UInt8 → Hist) (h : UInt8) (g : Hist → Hist) : UInt8 → Hist :=
  fun k => if k = h then g (f k) else f k

/-- A status that says that the data was discarded. -/
def discards (st : Option Status) : Bool :=
  st == some .memoryCapacityExceeded || st == some .packetTooLong

/-- How one data operation changes its history: accepted operations are recorded, data
beyond the capacity of the set is discarded, and other failures change nothing. -/
def recordData (op : Operation) (d : List UInt8) (st : Option Status) (hist : Hist) : Hist :=
  if st = some .success then (op, d) :: hist else if discards st then [] else hist

/-- The history as the host sees it: operations and their status. -/
def record (g : Ghost) (o : Op) (st : Option Status) : Ghost :=
  match o with
  | .cmd (.setExtAdvertisingData h op d) => { g with data := updateHist g.data h (recordData op d st) }
  | .cmd (.setExtScanResponseData h op d) => { g with scan := updateHist g.scan h (recordData op d st) }
  | .cmd (.setPeriodicData h op d) => { g with periodic := updateHist g.periodic h (recordData op d st) }
  | .cmd (.removeAdvertisingSet h) =>
    if st = some .success then
      ⟨updateHist g.data h (fun _ => []), updateHist g.scan h (fun _ => []), updateHist g.periodic h (fun _ => [])⟩
    else g
  | .cmd .clearAdvertisingSets => if st = some .success then {} else g
  | .env .reset => {}
  | _ => g

/-- Run a list of operations and record the histories. -/
def runHist (cfg : Config) : List Op → State → Ghost → Option (State × Ghost)
  | [], s, g => some (s, g)
  | o :: os, s, g =>
    match step cfg s o with
    | .ok s' st _ => runHist cfg os s' (record g o st)
    | .ub => none
    | .fatal => none

/-- The legacy data commands carry at most 31 bytes (hci_packets.pdl 3327-3331 and
3335-3339: longer data does not parse). -/
def Op.parsed : Op → Prop
  | .cmd (.setAdvertisingData d) => d.length ≤ 31
  | .cmd (.setScanResponseData d) => d.length ≤ 31
  | _ => True

end Verif.Le
