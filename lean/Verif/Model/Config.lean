import Verif.Model.Py

/-! # `src/ramwich/config.py` (functional part)

Energy, area and power numbers are not modelled here (they only feed the statistics; see
`Model/Stats`). Integers that Python would accept as negative are `Nat`. -/
namespace Ramwich

/-- `BitConfig` (config.py:9-14). -/
inductive BitConfig
  | slc | mlc | tlc | qlc | sram
  deriving DecidableEq, Repr

/-- `int(i)` of a storage character, 1 for SRAM (config.py:636-648). -/
def BitConfig.bits : BitConfig → Nat
  | .slc => 1
  | .mlc => 2
  | .tlc => 3
  | .qlc => 4
  | .sram => 1

/-- `DataConfig` after parsing the formats (config.py:17-57). -/
structure DataConfig where
  storageConfig : List BitConfig
  weightIntBits : Nat
  weightFracBits : Nat
  activationIntBits : Nat
  activationFracBits : Nat
  deriving DecidableEq, Repr

/-- config.py:45 -/
def DataConfig.weightWidth (d : DataConfig) : Nat := d.weightIntBits + d.weightFracBits
/-- config.py:53 -/
def DataConfig.activationWidth (d : DataConfig) : Nat := d.activationIntBits + d.activationFracBits

/-- `ADCType` (config.py:215-217). -/
inductive ADCType
  | normal | differential
  deriving DecidableEq, Repr

/-- The fields of `DACConfig`, `XBARConfig`, `ADCConfig` and `MVMUConfig` that the functional
simulation reads (config.py:60-245, 553-607). The latency of a DAC/ADC is `none` when the resolution
is not in its lookup table (config.py:92-96, 241-245), see `dacLat` and `adcLat`. -/
structure MVMUConfig where
  xbarSize : Nat
  numColumnsPerAdc : Nat
  numColumnsPerCalculator : Nat := 128
  numAdcPerXbar : Nat
  dacResolution : Nat
  vdd : ℚ
  adcResolution : Nat
  adcType : ADCType := .normal
  conductanceMin : ℚ
  conductanceMax : ℚ
  hasNoise : Bool := false
  -- derived by `Config.validate_and_calculate`
  storedBit : List Nat := []
  bitsPerCell : List Nat := []
  isXbarRram : List Bool := []
  numRramXbarPerMvmu : Nat := 0
  numSramXbarPerMvmu : Nat := 0
  numXbarPerMvmu : Nat := 0
  rramToOutputMap : List Nat := []
  sramToOutputMap : List Nat := []
  haveRramXbar : Bool := false
  haveSramXbar : Bool := false
  deriving DecidableEq, Repr

/-- `DACConfig.LAT_DICT` lookup (config.py:64, 92-93). -/
def MVMUConfig.dacLat (m : MVMUConfig) : Option Nat :=
  if m.dacResolution ∈ [1, 2, 4, 8, 16] then some 1 else none

/-- `ADCConfig.LAT_DICT` lookup (config.py:226, 241-242). -/
def MVMUConfig.adcLat (m : MVMUConfig) : Option Nat :=
  match m.adcResolution with
  | 1 => some 13
  | 2 => some 25
  | 4 => some 50
  | 8 => some 100
  | 16 => some 200
  | _ => none

/-- `MVMUConfig.__init__` (config.py:597-607): the number of ADCs and the divisibility check. -/
def MVMUConfig.init (m : MVMUConfig) : Except PyErr MVMUConfig :=
  if m.numColumnsPerAdc = 0 then .error .zeroDivisionError
  else if m.xbarSize % m.numColumnsPerAdc ≠ 0 then .error .valueError
  else .ok { m with numAdcPerXbar := m.xbarSize / m.numColumnsPerAdc }

/-- Loop state of `validate_and_calculate`'s first loop (config.py:627-649). -/
structure StorageAcc where
  bits : Nat := 0
  storedBit : List Nat := []
  bitsPerCell : List Nat := []
  isXbarRram : List Bool := []
  numRram : Nat := 0
  numSram : Nat := 0
  haveRram : Bool := false
  haveSram : Bool := false
  deriving DecidableEq, Repr

/-- One iteration of that loop (config.py:636-649). -/
def StorageAcc.step (a : StorageAcc) (i : BitConfig) : StorageAcc :=
  let a := { a with storedBit := a.storedBit ++ [a.bits] }
  if i = .sram then
    { a with
      numSram := a.numSram + 1
      bitsPerCell := a.bitsPerCell ++ [1]
      isXbarRram := a.isXbarRram ++ [false]
      bits := a.bits + 1
      haveSram := true }
  else
    { a with
      numRram := a.numRram + 1
      bitsPerCell := a.bitsPerCell ++ [i.bits]
      isXbarRram := a.isXbarRram ++ [true]
      bits := a.bits + i.bits
      haveRram := true }

/-- The second loop (config.py:660-664): split crossbar indices by type. -/
def outputMaps (isXbarRram : List Bool) (numXbar : Nat) : List Nat × List Nat :=
  (List.range numXbar).foldl
    (fun acc i =>
      if isXbarRram.getD i false then (acc.1 ++ [i], acc.2) else (acc.1, acc.2 ++ [i]))
    ([], [])

/-- `TileConfig` (config.py:298-438), functional fields. -/
structure TileConfig where
  edramSizeInKB : Nat := 8192
  edramSize : Nat := 4194304
  edramLat : Nat := 50
  deriving DecidableEq, Repr

/-- `CoreConfig` (config.py:441-550), functional and timing fields. -/
structure CoreConfig where
  dataMemSize : Nat := 4096
  dataMemLat : Nat := 1
  instrnMemLat : Nat := 1
  aluLat : Nat := 1
  numAluPerVfu : Nat := 12
  deriving DecidableEq, Repr

/-- `NOCConfig` (config.py:248-295), timing fields. -/
structure NOCConfig where
  nocIntraLat : Nat := 31
  nocInterLat : Nat := 36
  deriving DecidableEq, Repr

/-- `Config` (config.py:610-623). -/
structure Config where
  numNodes : Nat := 1
  numTilesPerNode : Nat := 4
  numCoresPerTile : Nat := 8
  numMvmusPerCore : Nat := 6
  dataConfig : DataConfig
  nocConfig : NOCConfig := {}
  tileConfig : TileConfig := {}
  coreConfig : CoreConfig := {}
  mvmuConfig : MVMUConfig
  deriving DecidableEq, Repr

/-- `Config.validate_and_calculate` (config.py:625-668). The loop starts with `have_*_xbar` as given
(default `False`, config.py:590-591). A zero activation width makes line 666 divide by zero. -/
def Config.validateAndCalculate (c : Config) : Except PyErr Config :=
  let a := c.dataConfig.storageConfig.foldl StorageAcc.step
    { haveRram := c.mvmuConfig.haveRramXbar, haveSram := c.mvmuConfig.haveSramXbar }
  let storedBit := a.storedBit ++ [a.bits]
  if a.bits ≠ c.dataConfig.weightWidth then .error .assertionError
  else if c.dataConfig.activationWidth = 0 then .error .zeroDivisionError
  else
    let numXbar := a.numSram + a.numRram
    let maps := outputMaps a.isXbarRram numXbar
    .ok { c with
      mvmuConfig := { c.mvmuConfig with
        storedBit := storedBit
        bitsPerCell := a.bitsPerCell
        isXbarRram := a.isXbarRram
        numRramXbarPerMvmu := a.numRram
        numSramXbarPerMvmu := a.numSram
        numXbarPerMvmu := numXbar
        rramToOutputMap := maps.1
        sramToOutputMap := maps.2
        haveRramXbar := a.haveRram
        haveSramXbar := a.haveSram }
      tileConfig := { c.tileConfig with
        edramSize := c.tileConfig.edramSizeInKB * 1024 * 8 / c.dataConfig.activationWidth } }

/-- Building a configuration: nested `MVMUConfig.__init__`, then the `Config` validator
(config.py:597-607, 625-660). -/
def Config.build (c : Config) : Except PyErr Config :=
  match c.mvmuConfig.init with
  | .error e => .error e
  | .ok m => { c with mvmuConfig := m }.validateAndCalculate

end Ramwich
