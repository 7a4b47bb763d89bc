import Verif.Model.Radio

/-!
# Model of src/ldl_region.c: the functions that do not touch the MAC

All four regions are compiled in.
-/

namespace LDL

/-- `enum ldl_region` (include/ldl_region.h:51-64). -/
inductive Region | eu868 | us915 | au915 | eu433
deriving Repr, DecidableEq

/-- Spreading factor, bandwidth and maximum payload. -/
structure RateInfo where
  sf : Nat
  bw : Bw
  mtu : Nat
deriving Repr, DecidableEq

namespace Region

/-- `LDL_Region_convertRate` (src/ldl_region.c:54-255). -/
def convertRate (region : Region) (rate : Nat) : RateInfo :=
  match region with
  | .eu868 | .eu433 =>
    match rate with
    | 0 => ⟨12, .b125, 59⟩
    | 1 => ⟨11, .b125, 59⟩
    | 2 => ⟨10, .b125, 59⟩
    | 3 => ⟨9, .b125, 123⟩
    | 4 => ⟨8, .b125, 250⟩
    | 5 => ⟨7, .b125, 250⟩
    | 6 => ⟨7, .b250, 250⟩
    | _ => ⟨7, .b125, 250⟩
  | .us915 =>
    match rate with
    | 0 => ⟨10, .b125, 19⟩
    | 1 => ⟨9, .b125, 61⟩
    | 2 => ⟨8, .b125, 133⟩
    | 3 => ⟨7, .b125, 250⟩
    | 4 | 12 => ⟨8, .b500, 250⟩
    | 8 => ⟨12, .b500, 61⟩
    | 9 => ⟨11, .b500, 137⟩
    | 10 => ⟨10, .b500, 250⟩
    | 11 => ⟨9, .b500, 250⟩
    | 13 => ⟨7, .b500, 250⟩
    | _ => ⟨7, .b125, 250⟩
  | .au915 =>
    match rate with
    | 0 => ⟨12, .b125, 59⟩
    | 1 => ⟨11, .b125, 59⟩
    | 2 => ⟨10, .b125, 59⟩
    | 3 => ⟨9, .b125, 123⟩
    | 4 => ⟨8, .b125, 250⟩
    | 5 => ⟨7, .b125, 250⟩
    | 6 | 12 => ⟨8, .b500, 250⟩
    | 8 => ⟨12, .b500, 61⟩
    | 9 => ⟨11, .b500, 137⟩
    | 10 => ⟨10, .b500, 250⟩
    | 11 => ⟨9, .b500, 250⟩
    | 13 => ⟨7, .b500, 250⟩
    | _ => ⟨7, .b125, 250⟩

/-- `LDL_Region_getBand` (src/ldl_region.c:257-302). -/
def getBand (region : Region) (freq : Nat) : Option Nat :=
  match region with
  | .eu868 =>
    if 863000000 ≤ freq ∧ freq ≤ 868000000 then some 0
    else if 868000000 ≤ freq ∧ freq ≤ 868600000 then some 1
    else if 868700000 ≤ freq ∧ freq ≤ 869200000 then some 2
    else if 869400000 ≤ freq ∧ freq ≤ 869650000 then some 3
    else if 869700000 ≤ freq ∧ freq < 870000000 then some 4
    else none
  | _ => some 0

/-- `LDL_Region_isDynamic` (src/ldl_region.c:304-325). -/
def isDynamic : Region → Bool
  | .us915 | .au915 => false
  | _ => true

/-- Frequency and rate range of a channel. -/
structure Chan where
  freq : Nat
  minRate : Nat
  maxRate : Nat
deriving Repr, DecidableEq

/-- `LDL_Region_getChannel` (src/ldl_region.c:327-389). -/
def getChannel (region : Region) (chIndex : Nat) : Option Chan :=
  match region with
  | .us915 =>
    if chIndex < 64 then some ⟨902300000 + 200000 * chIndex, 0, 3⟩
    else if chIndex < 72 then some ⟨903000000 + 1600000 * (chIndex - 64), 4, 4⟩
    else none
  | .au915 =>
    if chIndex < 64 then some ⟨915200000 + 200000 * chIndex, 0, 5⟩
    else if chIndex < 72 then some ⟨915900000 + 1600000 * (chIndex - 64), 6, 6⟩
    else none
  | _ => none

/-- `LDL_Region_numChannels` (src/ldl_region.c:391-413). -/
def numChannels : Region → Nat
  | .us915 | .au915 => 72
  | _ => 16

/-- `upRateRange` (src/ldl_region.c:1114-1182). -/
def upRateRange (region : Region) (chIndex : Nat) : Option (Nat × Nat) :=
  match region with
  | .eu868 | .eu433 => if chIndex < 16 then some (0, 5) else none
  | .us915 => if chIndex ≤ 71 then some (if chIndex ≤ 63 then (0, 3) else (4, 4)) else none
  | .au915 => if chIndex ≤ 71 then some (if chIndex ≤ 63 then (0, 5) else (6, 6)) else none

/-- `LDL_Region_getOffTimeFactor` (src/ldl_region.c:552-589). -/
def getOffTimeFactor (region : Region) (band : Nat) : Nat :=
  match region with
  | .eu868 =>
    if band = 0 ∨ band = 1 ∨ band = 4 then 100
    else if band = 2 then 1000
    else if band = 3 then 10
    else 0
  | .eu433 => 100
  | _ => 0

/-- `LDL_Region_validateRate` (src/ldl_region.c:591-606). -/
def validateRate (region : Region) (chIndex minRate maxRate : Nat) : Bool :=
  match upRateRange region chIndex with
  | some (min, max) => decide (minRate ≥ min ∧ maxRate ≤ max)
  | none => false

/-- `LDL_Region_validateFreq` (src/ldl_region.c:608-646). -/
def validateFreq (region : Region) (freq : Nat) : Bool :=
  match region with
  | .eu868 => decide (freq > 863000000 ∧ freq < 870000000)
  | .eu433 => decide (freq ≥ 433175000 ∧ freq ≤ 434665000)
  | .us915 => decide (freq > 902000000 ∧ freq < 928000000)
  | .au915 => decide (freq > 915000000 ∧ freq < 928000000)

/-- The tables of `LDL_Region_getRX1DataRate` (src/ldl_region.c:669-679, 689-696, 706-715). -/
def rx1Rates : Region → List Nat
  | .eu868 | .eu433 =>
    [0, 0, 0, 0, 0, 0,
     1, 0, 0, 0, 0, 0,
     2, 1, 0, 0, 0, 0,
     3, 2, 1, 0, 0, 0,
     4, 3, 2, 1, 0, 0,
     5, 4, 3, 2, 1, 0,
     6, 5, 4, 3, 2, 1,
     7, 6, 5, 4, 3, 2]
  | .us915 =>
    [10, 9, 8, 8,
     11, 10, 9, 8,
     12, 11, 10, 9,
     13, 12, 11, 10,
     13, 13, 12, 11]
  | .au915 =>
    [8, 8, 8, 8, 8, 8,
     9, 8, 8, 8, 8, 8,
     10, 9, 8, 8, 8, 8,
     11, 10, 9, 8, 8, 8,
     12, 11, 10, 9, 8, 8,
     13, 12, 11, 10, 9, 8,
     13, 13, 12, 11, 10, 9]

/-- `LDL_Region_getRX1DataRate` (src/ldl_region.c:648-735).  The index is a `uint8_t`. -/
def getRX1DataRate (region : Region) (txRate rx1Offset : Nat) : Nat :=
  let i := u8 (txRate * (match region with | .us915 => 4 | _ => 6) + rx1Offset)
  match (rx1Rates region)[i]? with
  | some r => r
  | none => txRate

/-- `LDL_Region_getRX1Freq` (src/ldl_region.c:737-757). -/
def getRX1Freq (region : Region) (txFreq chIndex : Nat) : Nat :=
  match region with
  | .us915 | .au915 => 923300000 + (chIndex % 8) * 600000
  | _ => txFreq

/-- `LDL_Region_getRX1Delay` (src/ldl_region.c:759-764). -/
def getRX1Delay (_ : Region) : Nat := 1

/-- `LDL_Region_getJA1Delay` (src/ldl_region.c:766-771). -/
def getJA1Delay (_ : Region) : Nat := 5

/-- `LDL_Region_getRX1Offset` (src/ldl_region.c:773-778). -/
def getRX1Offset (_ : Region) : Nat := 0

/-- `LDL_Region_getRX2Freq` (src/ldl_region.c:780-809). -/
def getRX2Freq : Region → Nat
  | .eu868 => 869525000
  | .eu433 => 434665000
  | .us915 => 923300000
  | .au915 => 923300000

/-- `LDL_Region_getRX2Rate` (src/ldl_region.c:811-840). -/
def getRX2Rate : Region → Nat
  | .eu868 | .eu433 => 0
  | .us915 | .au915 => 8

/-- `LDL_Region_validateTXPower` (src/ldl_region.c:842-885). -/
def validateTXPower (region : Region) (power : Nat) : Bool :=
  match region with
  | .eu868 => decide (power ≤ 7)
  | .eu433 => decide (power ≤ 5)
  | .us915 | .au915 => decide (power ≤ 10)

/-- `LDL_Region_getTXPower` (src/ldl_region.c:887-942), in dBm x 1E-2. -/
def getTXPower (region : Region) (power : Nat) : Int :=
  match region with
  | .eu868 => if power ≤ 7 then 1600 - power * 200 else 1600 - 7 * 200
  | .eu433 => if power ≤ 5 then 1215 - power * 200 else 1215 - 5 * 200
  | .us915 | .au915 => if power ≤ 10 then 3000 - power * 200 else 3000 - 10 * 200

/-- `LDL_Region_getJoinRate` (src/ldl_region.c:944-977), with `MIN_RATE` (src/ldl_region.c:40-44) as an argument. -/
def getJoinRate (region : Region) (minRate trial : Nat) : Nat :=
  match region with
  | .eu868 | .eu433 => 5 - trial % (6 - minRate)
  | .us915 => minRate
  | .au915 => 2

/-- `LDL_Region_getJoinIndex` (src/ldl_region.c:979-1019). -/
def getJoinIndex (region : Region) (trial random : Nat) : Nat :=
  match region with
  | .us915 | .au915 =>
    if trial &&& 1 > 0 then u8 (64 + (trial >>> 1) % 8)
    else u8 (((trial >>> 1) % 8) * 8 + random % 8)
  | _ => 0

/-- `LDL_Region_getMaxDCycleOffLimit` (src/ldl_region.c:1021-1035). -/
def getMaxDCycleOffLimit (_ : Region) : Nat := 30 * 60 * 256

/-- `LDL_Region_txParamSetupImplemented` (src/ldl_region.c:1072-1088). -/
def txParamSetupImplemented : Region → Bool
  | .au915 => true
  | _ => false

/-- `LDL_Region_applyUplinkDwell` (src/ldl_region.c:1090-1110). -/
def applyUplinkDwell (region : Region) (dwell : Bool) (rate : Nat) : Nat :=
  match region with
  | .au915 => if dwell = true ∧ rate < 2 then 2 else rate
  | _ => rate

/-- `unpackCFListFreq` (src/ldl_region.c:450-461) at `pos`. -/
def unpackCFListFreq (cfList : Bytes) (pos : Nat) : Nat :=
  u32 ((((cfList.getD (pos + 2) 0).toNat <<< 8 ||| (cfList.getD (pos + 1) 0).toNat) <<< 8 |||
    (cfList.getD pos 0).toNat) * 100)

/-- `unpackCFListMask` (src/ldl_region.c:465-472) at `pos`. -/
def unpackCFListMask (cfList : Bytes) (pos : Nat) : Nat :=
  (cfList.getD (pos + 1) 0).toNat <<< 8 ||| (cfList.getD pos 0).toNat

end Region
end LDL
