import Verif.Model.ConfigTables
import Verif.Model.MvmuFloat

/-! # The numbers of `config.py` in float64

`Model/ConfigTables` takes decimal constants and formulas of config.py as exact. Python replaces a decimal by the
nearest float64, and rounds every `+`, `-`, `*` and `/`. The functions here are those of `Model/ConfigTables` with these
roundings. Latencies in tables are integers and stay as they are. `r8` is the float64 `math.sqrt(8)`; `math.sqrt(4)` is
exactly 2; `10 ** (-7)` is taken to be the float64 nearest to it. -/
namespace Ramwich.Tables

/-- A table of decimals as Python holds it (as config.py:65-79). -/
def Table.float {κ : Type} (d : Table κ) : Table κ := d.map fun e => (e.1, f64 e.2)

/-- config.py:308-315: the quotients of float64 numbers, rounded. -/
def edramPowDynTabF : Table Nat :=
  [(8, f64 (f64 17.2 / 50)), (64, f64 (f64 17.2 / 50)), (128, f64 (f64 25.35 / 50)), (2048, f64 (f64 25.35 / 50)),
    (8192, f64 (f64 25.35 / 50)), (16384, f64 (f64 25.35 / 50))]

/-- config.py:254 with the rates as float64 numbers. -/
def nocLatTabF : Table ℚ := nocLatTab.map fun e => (f64 e.1, e.2)

/-- `DACConfig.__init__` (config.py:89-96). -/
def Dac.initF (d : Dac) : Except PyErr Dac :=
  if dacLatTab.has d.resolution then do
    let lat ← dacLatTab.get d.resolution
    let powDyn ← dacPowDynTab.float.get d.resolution
    let powLeak ← dacPowLeakTab.float.get d.resolution
    let area ← dacAreaTab.float.get d.resolution
    pure { d with lat := lat, powDyn := powDyn, powLeak := powLeak, area := area }
  else .ok d

/-- config.py:182-198 -/
def Xbar.initXbarF (x : Xbar) : Except PyErr Xbar :=
  if xbarLatTab.has x.xbarSize then do
    let x := { x with xbarLat := ← xbarLatTab.get x.xbarSize }
    let x := { x with xbarPow := ← xbarPowTab.float.get x.xbarSize }
    let x := { x with xbarArea := ← xbarAreaTab.float.get x.xbarSize }
    let x := { x with inMemLat := ← inMemLatTab.get x.xbarSize }
    let x := { x with inMemPowDynRead := ← inMemPowDynReadTab.float.get x.xbarSize }
    let x := { x with inMemPowDynWrite := ← inMemPowDynWriteTab.float.get x.xbarSize }
    let x := { x with inMemPowLeak := ← inMemPowLeakTab.float.get x.xbarSize }
    let x := { x with inMemArea := ← inMemAreaTab.float.get x.xbarSize }
    let x := { x with outMemLat := ← outMemLatTab.get x.xbarSize }
    let x := { x with outMemPowDyn := ← outMemPowDynTab.float.get x.xbarSize }
    let x := { x with outMemPowLeak := ← outMemPowLeakTab.float.get x.xbarSize }
    let x := { x with outMemArea := ← outMemAreaTab.float.get x.xbarSize }
    pure { x with xbarPow := some (f64 (x.xbarIpLat * x.xbarIpPow)) }
  else .ok x

/-- config.py:200-205 -/
def Xbar.initSramF (x : Xbar) : Except PyErr Xbar :=
  if sramXbarLatTab.has x.xbarSize then do
    let x := { x with sramXbarLat := ← sramXbarLatTab.get x.xbarSize }
    let x := { x with sramXbarPowDyn := ← sramXbarPowDynTab.float.get x.xbarSize }
    let x := { x with sramXbarArea := ← sramXbarAreaTab.float.get x.xbarSize }
    let x := { x with sramXbarPowLeak := ← sramXbarPowLeakTab.float.get x.xbarSize }
    pure x
  else .ok x

/-- config.py:207-212 -/
def Xbar.initCalculatorF (x : Xbar) : Except PyErr Xbar :=
  if calculatorLatTab.has x.xbarSize then do
    let x := { x with calculatorLat := ← calculatorLatTab.get x.xbarSize }
    let x := { x with calculatorPowLeak := ← calculatorPowLeakTab.float.get x.xbarSize }
    let x := { x with calculatorPowDyn := ← calculatorPowDynTab.float.get x.xbarSize }
    let x := { x with calculatorArea := ← calculatorAreaTab.float.get x.xbarSize }
    pure x
  else .ok x

/-- `XBARConfig.__init__` (config.py:179-212). -/
def Xbar.initF (x : Xbar) : Except PyErr Xbar := do
  let x ← x.initXbarF
  let x ← x.initSramF
  x.initCalculatorF

/-- `ADCConfig.__init__` (config.py:238-245). -/
def Adc.initF (d : Adc) : Except PyErr Adc :=
  if adcLatTab.has d.resolution then do
    let lat ← adcLatTab.get d.resolution
    let powDyn ← adcPowDynTab.float.get d.resolution
    let powLeak ← adcPowLeakTab.float.get d.resolution
    let area ← adcAreaTab.float.get d.resolution
    pure { d with lat := lat, powDyn := powDyn, powLeak := powLeak, area := area }
  else .ok d

/-- `NOCConfig.__init__` (config.py:275-295). Line 295 adds a number to `None` if there is no latency:
TypeError. -/
def Noc.initF (n : Noc) : Except PyErr Noc :=
  if f64 injRateMax < n.injRate then .error .valueError
  else do
    let n := { n with intraLat := ← nocLatTabF.update n.injRate n.intraLat }
    let n := { n with intraPowDyn := ← nocPowDynTab.float.update n.numPort n.intraPowDyn }
    let n := { n with intraPowLeak := ← nocPowLeakTab.float.update n.numPort n.intraPowLeak }
    let n := { n with intraArea := ← nocAreaTab.float.update n.numPort n.intraArea }
    match n.intraLat with
    | some l => .ok { n with interLat := f64 (n.htLat + l) }
    | none => .error .typeError

/-- config.py:428-432 -/
def Tile.initEdramF (t : Tile) : Except PyErr Tile :=
  if edramLatTab.has t.edramSizeInKB then do
    let t := { t with edramLat := ← edramLatTab.get t.edramSizeInKB }
    let t := { t with edramPowDyn := ← edramPowDynTabF.get t.edramSizeInKB }
    let t := { t with edramPowLeak := ← edramPowLeakTab.float.get t.edramSizeInKB }
    let t := { t with edramArea := ← edramAreaTab.float.get t.edramSizeInKB }
    pure t
  else .ok t

/-- config.py:434-438 -/
def Tile.initInstrnF (r8 : ℚ) (t : Tile) : Except PyErr Tile :=
  if instrnMemLatTab.has t.instrnMemSize then do
    let t := { t with instrnMemLat := ← instrnMemLatTab.get t.instrnMemSize }
    let t := { t with instrnMemPowDyn := ← instrnMemPowDynTab.float.get t.instrnMemSize }
    let t := { t with instrnMemPowLeak := ← instrnMemPowLeakTab.float.get t.instrnMemSize }
    let t := { t with instrnMemArea := (← instrnMemAreaTab.float.get t.instrnMemSize).map fun a => f64 (a * r8) }
    pure t
  else .ok t

/-- `TileConfig.__init__` (config.py:425-438). -/
def Tile.initF (r8 : ℚ) (t : Tile) : Except PyErr Tile := do
  let t ← t.initEdramF
  t.initInstrnF r8

/-- config.py:539-544 -/
def Core.initDataF (c : Core) : Except PyErr Core :=
  if dataMemLatTab.has c.dataMemSize then do
    let c := { c with dataMemLat := ← dataMemLatTab.get c.dataMemSize }
    let c := { c with dataMemPowDyn := ← dataMemPowDynTab.float.get c.dataMemSize }
    let c := { c with dataMemPowLeak := ← dataMemPowLeakTab.float.get c.dataMemSize }
    let c := { c with dataMemArea := ← dataMemAreaTab.float.get c.dataMemSize }
    pure c
  else .ok c

/-- config.py:546-550 -/
def Core.initInstrnF (r8 : ℚ) (c : Core) : Except PyErr Core :=
  if instrnMemLatTab.has c.instrnMemSize then do
    let c := { c with instrnMemLat := ← instrnMemLatTab.get c.instrnMemSize }
    let c := { c with instrnMemPowDyn := ← instrnMemPowDynTab.float.get c.instrnMemSize }
    let c := { c with instrnMemPowLeak := ← instrnMemPowLeakTab.float.get c.instrnMemSize }
    let c := { c with instrnMemArea := (← instrnMemAreaTab.float.get c.instrnMemSize).map fun a => f64 (a * r8) }
    pure c
  else .ok c

/-- `CoreConfig.__init__` (config.py:536-550). -/
def Core.initF (r8 : ℚ) (c : Core) : Except PyErr Core := do
  let c ← c.initDataF
  c.initInstrnF r8

/-- The nested `__init__` calls, in the order of the fields (config.py:618-623, 593-595). The error is
that of the first class that raises; pydantic would collect several `ValueError`s in one exception. The
check of `MVMUConfig.__init__` is in `Model/Config`. -/
def Numbers.initF (r8 : ℚ) (n : Numbers) : Except PyErr Numbers := do
  let noc ← n.noc.initF
  let tile ← n.tile.initF r8
  let core ← n.core.initF r8
  let dac ← n.mvmu.dac.initF
  let xbar ← n.mvmu.xbar.initF
  let adc ← n.mvmu.adc.initF
  pure { noc := noc, tile := tile, core := core, mvmu := { n.mvmu with dac := dac, xbar := xbar, adc := adc } }

/-- The default values of config.py (160, 259-273, 302-304, 390-423, 445-447, 517-534, 556-571), each constant and
each operation rounded. Values that are not mentioned are integers or missing. -/
def Numbers.floatDefaults : Numbers where
  noc :=
    { injRate := f64 0.005
      interArea := f64 22.88 }
  tile :=
    { tcuPowDyn := f64 (f64 0.25 * f64 0.2)
      tcuArea := f64 0.00145
      edramBusPowDyn := f64 (6 / 2)
      edramBusPowLeak := f64 (1 / 2)
      edramBusArea := f64 0.090
      edramCtrlPowDyn := f64 0.475
      edramCtrlPowLeak := f64 0.05
      edramCtrlArea := f64 0.00145
      receiveBufferPowDyn := f64 (f64 4.48 * 2)
      receiveBufferPowLeak := f64 (f64 0.09 * 2)
      receiveBufferArea := f64 (f64 0.0022 * 2) }
  core :=
    { ccuPowDyn := f64 (f64 1.25 * f64 0.2)
      ccuArea := f64 (f64 0.00145 * f64 2.25)
      aluPowDyn := f64 (f64 (f64 2.4 * 32) / 45)
      aluPowDivDyn := f64 (f64 (f64 1.52 * 32) / 45)
      aluPowMulDyn := f64 (f64 (f64 0.795 * 32) / 45)
      actPowLeak := f64 0.026
      actPowDyn := f64 (f64 0.26 - f64 0.026)
      aluPowOthersDyn := f64 (f64 (f64 0.373 * 32) / 45)
      aluPowLeak := f64 (f64 (f64 0.27 * 32) / 45)
      aluArea := f64 (f64 (f64 0.00567 * 32) / 45)
      actArea := f64 0.0003 }
  mvmu :=
    { snhPowLeak := f64 (f64 9.7 * f64 1e-7)
      snhPowDyn := f64 (f64 (f64 9.7 * f64 1e-6) - f64 (f64 9.7 * f64 1e-7))
      snhArea := f64 (f64 (f64 0.00004 / 8) / 128)
      snaPowLeak := f64 0.005
      snaPowDyn := f64 (f64 0.05 - f64 0.005)
      snaArea := f64 0.00006
      xbar := { xbarIpPow := f64 (f64 (f64 1.37 * 2) - f64 1.04) } }

end Ramwich.Tables
