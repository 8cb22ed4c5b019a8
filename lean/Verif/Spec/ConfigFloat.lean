import Verif.Spec.GetStatsFloat
import Verif.Model.ConfigFloat

/-! # Reports with numbers that are nearly those of config.py

config.py contains decimal numbers and formulas. Python replaces each decimal by the nearest float64 and rounds each
operation. `nearPower` and `nearNumbers` say by how much the numbers of a configuration may differ from exact ones. -/
namespace Ramwich.Spec

/-- `a` and `x` are non-negative and differ by at most `n` roundings to 53 bits. -/
def upTo (n : Nat) (a x : ℚ) : Prop :=
  0 ≤ a ∧ 0 ≤ x ∧ x * (1 - 1 / 2 ^ 53) ^ n ≤ a ∧ a * (1 - 1 / 2 ^ 53) ^ n ≤ x

/-- Both missing, or both there and near. -/
def upTo? (n : Nat) : Option ℚ → Option ℚ → Prop
  | none, none => True
  | some a, some x => upTo n a x
  | _, _ => False

/-- All numbers that a report may use are near, and none is missing on one side only. -/
structure nearPower (n : Nat) (pF p : Power) : Prop where
  dacPowDyn : upTo? n pF.dacPowDyn p.dacPowDyn
  dacPowLeak : upTo? n pF.dacPowLeak p.dacPowLeak
  dacArea : upTo? n pF.dacArea p.dacArea
  adcPowDyn : upTo? n pF.adcPowDyn p.adcPowDyn
  adcPowLeak : upTo? n pF.adcPowLeak p.adcPowLeak
  adcArea : upTo? n pF.adcArea p.adcArea
  xbarPow : upTo? n pF.xbarPow p.xbarPow
  xbarPowLeak : upTo n pF.xbarPowLeak p.xbarPowLeak
  xbarArea : upTo? n pF.xbarArea p.xbarArea
  sramXbarPowDyn : upTo? n pF.sramXbarPowDyn p.sramXbarPowDyn
  sramXbarPowLeak : upTo? n pF.sramXbarPowLeak p.sramXbarPowLeak
  sramXbarArea : upTo? n pF.sramXbarArea p.sramXbarArea
  calculatorPowDyn : upTo? n pF.calculatorPowDyn p.calculatorPowDyn
  calculatorPowLeak : upTo? n pF.calculatorPowLeak p.calculatorPowLeak
  calculatorArea : upTo? n pF.calculatorArea p.calculatorArea
  inMemPowDynRead : upTo? n pF.inMemPowDynRead p.inMemPowDynRead
  inMemPowDynWrite : upTo? n pF.inMemPowDynWrite p.inMemPowDynWrite
  inMemPowLeak : upTo? n pF.inMemPowLeak p.inMemPowLeak
  inMemArea : upTo? n pF.inMemArea p.inMemArea
  outMemPowDyn : upTo? n pF.outMemPowDyn p.outMemPowDyn
  outMemPowLeak : upTo? n pF.outMemPowLeak p.outMemPowLeak
  outMemArea : upTo? n pF.outMemArea p.outMemArea
  snhPowDyn : upTo n pF.snhPowDyn p.snhPowDyn
  snhPowLeak : upTo n pF.snhPowLeak p.snhPowLeak
  snhArea : upTo n pF.snhArea p.snhArea
  muxPowDyn : upTo n pF.muxPowDyn p.muxPowDyn
  muxPowLeak : upTo n pF.muxPowLeak p.muxPowLeak
  muxArea : upTo n pF.muxArea p.muxArea
  snaPowDyn : upTo n pF.snaPowDyn p.snaPowDyn
  snaPowLeak : upTo n pF.snaPowLeak p.snaPowLeak
  snaArea : upTo n pF.snaArea p.snaArea
  ccuPowDyn : upTo n pF.ccuPowDyn p.ccuPowDyn
  ccuPowLeak : upTo n pF.ccuPowLeak p.ccuPowLeak
  ccuArea : upTo n pF.ccuArea p.ccuArea
  coreInstrnPowDyn : upTo? n pF.coreInstrnPowDyn p.coreInstrnPowDyn
  coreInstrnPowLeak : upTo? n pF.coreInstrnPowLeak p.coreInstrnPowLeak
  coreInstrnArea : upTo? n pF.coreInstrnArea p.coreInstrnArea
  dataMemPowDyn : upTo? n pF.dataMemPowDyn p.dataMemPowDyn
  dataMemPowLeak : upTo? n pF.dataMemPowLeak p.dataMemPowLeak
  dataMemArea : upTo? n pF.dataMemArea p.dataMemArea
  aluPowMulDyn : upTo n pF.aluPowMulDyn p.aluPowMulDyn
  aluPowDivDyn : upTo n pF.aluPowDivDyn p.aluPowDivDyn
  actPowDyn : upTo n pF.actPowDyn p.actPowDyn
  aluPowOthersDyn : upTo n pF.aluPowOthersDyn p.aluPowOthersDyn
  aluPowLeak : upTo n pF.aluPowLeak p.aluPowLeak
  aluArea : upTo n pF.aluArea p.aluArea
  actArea : upTo n pF.actArea p.actArea
  tcuPowDyn : upTo n pF.tcuPowDyn p.tcuPowDyn
  tcuPowLeak : upTo n pF.tcuPowLeak p.tcuPowLeak
  tcuArea : upTo n pF.tcuArea p.tcuArea
  tileInstrnPowDyn : upTo? n pF.tileInstrnPowDyn p.tileInstrnPowDyn
  tileInstrnPowLeak : upTo? n pF.tileInstrnPowLeak p.tileInstrnPowLeak
  tileInstrnArea : upTo? n pF.tileInstrnArea p.tileInstrnArea
  edramPowDyn : upTo? n pF.edramPowDyn p.edramPowDyn
  edramPowLeak : upTo? n pF.edramPowLeak p.edramPowLeak
  edramArea : upTo? n pF.edramArea p.edramArea
  edramCtrlPowDyn : upTo n pF.edramCtrlPowDyn p.edramCtrlPowDyn
  edramCtrlPowLeak : upTo n pF.edramCtrlPowLeak p.edramCtrlPowLeak
  edramCtrlArea : upTo n pF.edramCtrlArea p.edramCtrlArea
  edramBusPowLeak : upTo n pF.edramBusPowLeak p.edramBusPowLeak
  edramBusArea : upTo n pF.edramBusArea p.edramBusArea
  receiveBufferPowDyn : upTo n pF.receiveBufferPowDyn p.receiveBufferPowDyn
  receiveBufferPowLeak : upTo n pF.receiveBufferPowLeak p.receiveBufferPowLeak
  receiveBufferArea : upTo n pF.receiveBufferArea p.receiveBufferArea
  nocInterPowDyn : upTo n pF.nocInterPowDyn p.nocInterPowDyn
  nocInterPowLeak : upTo n pF.nocInterPowLeak p.nocInterPowLeak
  nocInterArea : upTo n pF.nocInterArea p.nocInterArea
  nocIntraPowDyn : upTo? n pF.nocIntraPowDyn p.nocIntraPowDyn
  nocIntraPowLeak : upTo n pF.nocIntraPowLeak p.nocIntraPowLeak
  nocIntraArea : upTo n pF.nocIntraArea p.nocIntraArea
  numPort : pF.numPort = p.numPort

/-- The numbers of a DAC. -/
structure nearDacNumbers (j : Nat) (a b : Tables.Dac) : Prop where
  resolution : a.resolution = b.resolution
  powDyn : upTo? j a.powDyn b.powDyn
  powLeak : upTo? j a.powLeak b.powLeak
  area : upTo? j a.area b.area

/-- The same of an ADC. -/
structure nearAdcNumbers (j : Nat) (a b : Tables.Adc) : Prop where
  resolution : a.resolution = b.resolution
  powDyn : upTo? j a.powDyn b.powDyn
  powLeak : upTo? j a.powLeak b.powLeak
  area : upTo? j a.area b.area

/-- The same of a crossbar; the two that `__init__` multiplies are within `i` roundings. -/
structure nearXbarNumbers (i j : Nat) (a b : Tables.Xbar) : Prop where
  inMemPowDynRead : upTo? j a.inMemPowDynRead b.inMemPowDynRead
  inMemPowDynWrite : upTo? j a.inMemPowDynWrite b.inMemPowDynWrite
  inMemPowLeak : upTo? j a.inMemPowLeak b.inMemPowLeak
  inMemArea : upTo? j a.inMemArea b.inMemArea
  xbarPow : upTo? j a.xbarPow b.xbarPow
  xbarPowLeak : upTo j a.xbarPowLeak b.xbarPowLeak
  xbarArea : upTo? j a.xbarArea b.xbarArea
  sramXbarPowDyn : upTo? j a.sramXbarPowDyn b.sramXbarPowDyn
  sramXbarPowLeak : upTo? j a.sramXbarPowLeak b.sramXbarPowLeak
  sramXbarArea : upTo? j a.sramXbarArea b.sramXbarArea
  calculatorPowLeak : upTo? j a.calculatorPowLeak b.calculatorPowLeak
  calculatorPowDyn : upTo? j a.calculatorPowDyn b.calculatorPowDyn
  calculatorArea : upTo? j a.calculatorArea b.calculatorArea
  outMemPowDyn : upTo? j a.outMemPowDyn b.outMemPowDyn
  outMemPowLeak : upTo? j a.outMemPowLeak b.outMemPowLeak
  outMemArea : upTo? j a.outMemArea b.outMemArea
  xbarIpLat : upTo i a.xbarIpLat b.xbarIpLat
  xbarIpPow : upTo i a.xbarIpPow b.xbarIpPow
  xbarSize : a.xbarSize = b.xbarSize

/-- The same of the network; the rate stands to the rounded rates of the table as the exact rate to the exact ones. -/
structure nearNocNumbers (j : Nat) (a b : Tables.Noc) : Prop where
  injRate : (f64 0.025 < a.injRate ↔ 0.025 < b.injRate)
    ∧ ∀ r ∈ [(0.001 : ℚ), 0.005, 0.01, 0.02, 0.025], (f64 r = a.injRate ↔ r = b.injRate)
  numPort : a.numPort = b.numPort
  htLat : a.htLat = b.htLat
  interPowDyn : upTo j a.interPowDyn b.interPowDyn
  interPowLeak : upTo j a.interPowLeak b.interPowLeak
  interArea : upTo j a.interArea b.interArea
  intraLat : a.intraLat = b.intraLat
  intraPowDyn : upTo? j a.intraPowDyn b.intraPowDyn
  intraPowLeak : upTo? j a.intraPowLeak b.intraPowLeak
  intraArea : upTo? j a.intraArea b.intraArea

/-- The same of a tile. -/
structure nearTileNumbers (j : Nat) (a b : Tables.Tile) : Prop where
  tcuPowDyn : upTo j a.tcuPowDyn b.tcuPowDyn
  tcuPowLeak : upTo j a.tcuPowLeak b.tcuPowLeak
  tcuArea : upTo j a.tcuArea b.tcuArea
  edramSizeInKB : a.edramSizeInKB = b.edramSizeInKB
  edramPowDyn : upTo? j a.edramPowDyn b.edramPowDyn
  edramPowLeak : upTo? j a.edramPowLeak b.edramPowLeak
  edramArea : upTo? j a.edramArea b.edramArea
  instrnMemSize : a.instrnMemSize = b.instrnMemSize
  instrnMemPowDyn : upTo? j a.instrnMemPowDyn b.instrnMemPowDyn
  instrnMemPowLeak : upTo? j a.instrnMemPowLeak b.instrnMemPowLeak
  instrnMemArea : upTo? j a.instrnMemArea b.instrnMemArea
  edramBusPowDyn : upTo j a.edramBusPowDyn b.edramBusPowDyn
  edramBusPowLeak : upTo j a.edramBusPowLeak b.edramBusPowLeak
  edramBusArea : upTo j a.edramBusArea b.edramBusArea
  edramCtrlPowDyn : upTo j a.edramCtrlPowDyn b.edramCtrlPowDyn
  edramCtrlPowLeak : upTo j a.edramCtrlPowLeak b.edramCtrlPowLeak
  edramCtrlArea : upTo j a.edramCtrlArea b.edramCtrlArea
  receiveBufferPowDyn : upTo j a.receiveBufferPowDyn b.receiveBufferPowDyn
  receiveBufferPowLeak : upTo j a.receiveBufferPowLeak b.receiveBufferPowLeak
  receiveBufferArea : upTo j a.receiveBufferArea b.receiveBufferArea

/-- The same of a core. -/
structure nearCoreNumbers (j : Nat) (a b : Tables.Core) : Prop where
  ccuPowDyn : upTo j a.ccuPowDyn b.ccuPowDyn
  ccuPowLeak : upTo j a.ccuPowLeak b.ccuPowLeak
  ccuArea : upTo j a.ccuArea b.ccuArea
  dataMemSize : a.dataMemSize = b.dataMemSize
  dataMemPowDyn : upTo? j a.dataMemPowDyn b.dataMemPowDyn
  dataMemPowLeak : upTo? j a.dataMemPowLeak b.dataMemPowLeak
  dataMemArea : upTo? j a.dataMemArea b.dataMemArea
  instrnMemSize : a.instrnMemSize = b.instrnMemSize
  instrnMemPowDyn : upTo? j a.instrnMemPowDyn b.instrnMemPowDyn
  instrnMemPowLeak : upTo? j a.instrnMemPowLeak b.instrnMemPowLeak
  instrnMemArea : upTo? j a.instrnMemArea b.instrnMemArea
  aluPowDyn : upTo j a.aluPowDyn b.aluPowDyn
  aluPowDivDyn : upTo j a.aluPowDivDyn b.aluPowDivDyn
  aluPowMulDyn : upTo j a.aluPowMulDyn b.aluPowMulDyn
  actPowLeak : upTo j a.actPowLeak b.actPowLeak
  actPowDyn : upTo j a.actPowDyn b.actPowDyn
  aluPowOthersDyn : upTo j a.aluPowOthersDyn b.aluPowOthersDyn
  aluPowLeak : upTo j a.aluPowLeak b.aluPowLeak
  aluArea : upTo j a.aluArea b.aluArea
  actArea : upTo j a.actArea b.actArea

/-- The same of an MVMU. -/
structure nearMvmuNumbers (i j : Nat) (a b : Tables.Mvmu) : Prop where
  snhPowLeak : upTo j a.snhPowLeak b.snhPowLeak
  snhPowDyn : upTo j a.snhPowDyn b.snhPowDyn
  snhArea : upTo j a.snhArea b.snhArea
  muxPowLeak : upTo j a.muxPowLeak b.muxPowLeak
  muxPowDyn : upTo j a.muxPowDyn b.muxPowDyn
  muxArea : upTo j a.muxArea b.muxArea
  snaPowLeak : upTo j a.snaPowLeak b.snaPowLeak
  snaPowDyn : upTo j a.snaPowDyn b.snaPowDyn
  snaArea : upTo j a.snaArea b.snaArea
  dac : nearDacNumbers j a.dac b.dac
  xbar : nearXbarNumbers i j a.xbar b.xbar
  adc : nearAdcNumbers j a.adc b.adc

/-- All numbers of two configurations are within `j` roundings, those that are multiplied within `i`; sizes are equal. -/
structure nearNumbers (i j : Nat) (a b : Tables.Numbers) : Prop where
  noc : nearNocNumbers j a.noc b.noc
  tile : nearTileNumbers j a.tile b.tile
  core : nearCoreNumbers j a.core b.core
  mvmu : nearMvmuNumbers i j a.mvmu b.mvmu

end Ramwich.Spec
