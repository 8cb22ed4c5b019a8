import Verif.Model.GetStats

/-! # The lookup tables of `config.py` and the numbers derived from them

Every configuration class looks latencies, powers and areas up by a size or resolution. The fields for
the results are declared with `init=False`, which pydantic ignores for a `BaseModel`: a user may give
them. They are `none` here if the user does not (the default `None` is not validated).

Decimal constants are exact rationals; `math.sqrt(8)` is a parameter `r8`; `math.sqrt(4)` is 2. -/
namespace Ramwich.Tables

/-- A lookup table (class attributes as at config.py:64-79). -/
abbrev Table (κ : Type) := List (κ × ℚ)

/-- `k in d` (as at config.py:91). -/
def Table.has {κ : Type} [DecidableEq κ] (d : Table κ) (k : κ) : Bool := d.any fun x => decide (x.1 = k)

/-- `d[k]` (as at config.py:92-95). -/
def Table.get {κ : Type} [DecidableEq κ] : Table κ → κ → Except PyErr (Option ℚ)
  | [], _ => .error .keyError
  | x :: d, k => if x.1 = k then .ok (some x.2) else Table.get d k

/-- `DACConfig` (config.py:81-87). -/
structure Dac where
  resolution : Nat := 1
  lat : Option ℚ := none
  powDyn : Option ℚ := none
  powLeak : Option ℚ := none
  area : Option ℚ := none
  deriving DecidableEq, Repr

/-- config.py:64 -/
def dacLatTab : Table Nat := [(1, 1), (2, 1), (4, 1), (8, 1), (16, 1)]
/-- config.py:65-71 -/
def dacPowDynTab : Table Nat := [(1, 0.00350625), (2, 0.00350625), (4, 0.00350625), (8, 0.00350625), (16, 0.00350625)]
/-- config.py:72-78 -/
def dacPowLeakTab : Table Nat :=
  [(1, 0.000390625), (2, 0.000390625), (4, 0.000390625), (8, 0.000390625), (16, 0.000390625)]
/-- config.py:79 -/
def dacAreaTab : Table Nat := [(1, 1.67e-7), (2, 1.67e-7), (4, 1.67e-7), (8, 1.67e-7), (16, 1.67e-7)]

/-- `DACConfig.__init__` (config.py:89-96). -/
def Dac.init (d : Dac) : Except PyErr Dac :=
  if dacLatTab.has d.resolution then do
    let lat ← dacLatTab.get d.resolution
    let powDyn ← dacPowDynTab.get d.resolution
    let powLeak ← dacPowLeakTab.get d.resolution
    let area ← dacAreaTab.get d.resolution
    pure { d with lat := lat, powDyn := powDyn, powLeak := powLeak, area := area }
  else .ok d

/-- `XBARConfig` (config.py:109-177); the latencies and powers of lines 161-170 are not read anywhere,
the other fields are in `MVMUConfig` of `Model/Config`. -/
structure Xbar where
  inMemLat : Option ℚ := none
  inMemPowDynRead : Option ℚ := none
  inMemPowDynWrite : Option ℚ := none
  inMemPowLeak : Option ℚ := none
  inMemArea : Option ℚ := none
  xbarLat : Option ℚ := none
  xbarPow : Option ℚ := none
  xbarPowLeak : ℚ := 0
  xbarArea : Option ℚ := none
  sramXbarLat : Option ℚ := none
  sramXbarPowDyn : Option ℚ := none
  sramXbarPowLeak : Option ℚ := none
  sramXbarArea : Option ℚ := none
  calculatorLat : Option ℚ := none
  calculatorPowLeak : Option ℚ := none
  calculatorPowDyn : Option ℚ := none
  calculatorArea : Option ℚ := none
  outMemLat : Option ℚ := none
  outMemPowDyn : Option ℚ := none
  outMemPowLeak : Option ℚ := none
  outMemArea : Option ℚ := none
  xbarIpLat : ℚ := 100
  xbarIpPow : ℚ := 1.37 * 2 - 1.04
  xbarSize : Nat := 128
  deriving DecidableEq, Repr

/-- config.py:103 -/
def inMemLatTab : Table Nat := [(32, 1), (64, 1), (128, 1), (256, 1)]
/-- config.py:104 -/
def inMemPowDynReadTab : Table Nat := [(32, 0.3), (64, 0.7), (128, 1.7), (256, 4.7)]
/-- config.py:105 -/
def inMemPowDynWriteTab : Table Nat := [(32, 0.1), (64, 0.1), (128, 0.16), (256, 0.2)]
/-- config.py:106 -/
def inMemPowLeakTab : Table Nat := [(32, 0.009), (64, 0.02), (128, 0.04), (256, 0.075)]
/-- config.py:107 -/
def inMemAreaTab : Table Nat := [(32, 0.00015), (64, 0.00033), (128, 0.00078), (256, 0.0019)]
/-- config.py:118 -/
def xbarLatTab : Table Nat := [(32, 32), (64, 64), (128, 128), (256, 256)]
/-- config.py:119 -/
def xbarPowTab : Table Nat := [(32, 0.01875), (64, 0.075), (128, 0.3), (256, 1.2)]
/-- config.py:120 -/
def xbarAreaTab : Table Nat := [(32, 1.5625e-6), (64, 6.25e-6), (128, 2.5e-5), (256, 1.0e-4)]
/-- config.py:127 -/
def sramXbarLatTab : Table Nat := [(32, 1), (64, 1), (128, 1), (256, 1)]
/-- config.py:128 -/
def sramXbarPowDynTab : Table Nat := [(32, 0.32), (64, 0.64), (128, 1.28), (256, 2.56)]
/-- config.py:129 -/
def sramXbarPowLeakTab : Table Nat := [(32, 0.02), (64, 0.08), (128, 0.32), (256, 1.28)]
/-- config.py:130 -/
def sramXbarAreaTab : Table Nat := [(32, 0.00012), (64, 0.00049), (128, 0.00196), (256, 0.00784)]
/-- config.py:137 -/
def calculatorLatTab : Table Nat := [(32, 6), (64, 7), (128, 8), (256, 9)]
/-- config.py:138 -/
def calculatorPowLeakTab : Table Nat := [(32, 0.02), (64, 0.04), (128, 0.08), (256, 0.16)]
/-- config.py:139 -/
def calculatorPowDynTab : Table Nat := [(32, 3.24), (64, 6.98), (128, 14.56), (256, 29.82)]
/-- config.py:140 -/
def calculatorAreaTab : Table Nat := [(32, 0.000058), (64, 0.000127), (128, 0.000265), (256, 0.000545)]
/-- config.py:148 -/
def outMemLatTab : Table Nat := [(32, 1), (64, 1), (128, 1), (256, 1)]
/-- config.py:149 -/
def outMemPowDynTab : Table Nat := [(32, 0.1), (64, 0.1), (128, 0.16), (256, 0.2)]
/-- config.py:150 -/
def outMemPowLeakTab : Table Nat := [(32, 0.009), (64, 0.02), (128, 0.04), (256, 0.075)]
/-- config.py:151 -/
def outMemAreaTab : Table Nat := [(32, 0.00015), (64, 0.00033), (128, 0.00078), (256, 0.0019)]

/-- config.py:182-198 -/
def Xbar.initXbar (x : Xbar) : Except PyErr Xbar :=
  if xbarLatTab.has x.xbarSize then do
    let x := { x with xbarLat := ← xbarLatTab.get x.xbarSize }
    let x := { x with xbarPow := ← xbarPowTab.get x.xbarSize }
    let x := { x with xbarArea := ← xbarAreaTab.get x.xbarSize }
    let x := { x with inMemLat := ← inMemLatTab.get x.xbarSize }
    let x := { x with inMemPowDynRead := ← inMemPowDynReadTab.get x.xbarSize }
    let x := { x with inMemPowDynWrite := ← inMemPowDynWriteTab.get x.xbarSize }
    let x := { x with inMemPowLeak := ← inMemPowLeakTab.get x.xbarSize }
    let x := { x with inMemArea := ← inMemAreaTab.get x.xbarSize }
    let x := { x with outMemLat := ← outMemLatTab.get x.xbarSize }
    let x := { x with outMemPowDyn := ← outMemPowDynTab.get x.xbarSize }
    let x := { x with outMemPowLeak := ← outMemPowLeakTab.get x.xbarSize }
    let x := { x with outMemArea := ← outMemAreaTab.get x.xbarSize }
    pure { x with xbarPow := some (x.xbarIpLat * x.xbarIpPow) }
  else .ok x

/-- config.py:200-205 -/
def Xbar.initSram (x : Xbar) : Except PyErr Xbar :=
  if sramXbarLatTab.has x.xbarSize then do
    let x := { x with sramXbarLat := ← sramXbarLatTab.get x.xbarSize }
    let x := { x with sramXbarPowDyn := ← sramXbarPowDynTab.get x.xbarSize }
    let x := { x with sramXbarArea := ← sramXbarAreaTab.get x.xbarSize }
    let x := { x with sramXbarPowLeak := ← sramXbarPowLeakTab.get x.xbarSize }
    pure x
  else .ok x

/-- config.py:207-212 -/
def Xbar.initCalculator (x : Xbar) : Except PyErr Xbar :=
  if calculatorLatTab.has x.xbarSize then do
    let x := { x with calculatorLat := ← calculatorLatTab.get x.xbarSize }
    let x := { x with calculatorPowLeak := ← calculatorPowLeakTab.get x.xbarSize }
    let x := { x with calculatorPowDyn := ← calculatorPowDynTab.get x.xbarSize }
    let x := { x with calculatorArea := ← calculatorAreaTab.get x.xbarSize }
    pure x
  else .ok x

/-- `XBARConfig.__init__` (config.py:179-212). -/
def Xbar.init (x : Xbar) : Except PyErr Xbar := do
  let x ← x.initXbar
  let x ← x.initSram
  x.initCalculator

/-- `ADCConfig` (config.py:231-236). -/
structure Adc where
  resolution : Nat := 8
  lat : Option ℚ := none
  powDyn : Option ℚ := none
  powLeak : Option ℚ := none
  area : Option ℚ := none
  deriving DecidableEq, Repr

/-- config.py:226 -/
def adcLatTab : Table Nat := [(1, 13), (2, 25), (4, 50), (8, 100), (16, 200)]
/-- config.py:227 -/
def adcPowDynTab : Table Nat := [(1, 0.225), (2, 0.45), (4, 0.9), (8, 1.8), (16, 3.2)]
/-- config.py:228 -/
def adcPowLeakTab : Table Nat := [(1, 0.025), (2, 0.05), (4, 0.1), (8, 0.2), (16, 0.4)]
/-- config.py:229 -/
def adcAreaTab : Table Nat := [(1, 0.0012), (2, 0.0012), (4, 0.0012), (8, 0.0012), (16, 0.0012)]

/-- `ADCConfig.__init__` (config.py:238-245). -/
def Adc.init (d : Adc) : Except PyErr Adc :=
  if adcLatTab.has d.resolution then do
    let lat ← adcLatTab.get d.resolution
    let powDyn ← adcPowDynTab.get d.resolution
    let powLeak ← adcPowLeakTab.get d.resolution
    let area ← adcAreaTab.get d.resolution
    pure { d with lat := lat, powDyn := powDyn, powLeak := powLeak, area := area }
  else .ok d

/-- `NOCConfig` (config.py:259-273). -/
structure Noc where
  injRate : ℚ := 0.005
  numPort : Nat := 4
  htLat : ℚ := 5
  interLat : ℚ := 36
  interPowDyn : ℚ := 10400
  interPowLeak : ℚ := 0
  interArea : ℚ := 22.88
  intraLat : Option ℚ := none
  intraPowDyn : Option ℚ := none
  intraPowLeak : Option ℚ := none
  intraArea : Option ℚ := none
  deriving DecidableEq, Repr

/-- config.py:252 -/
def injRateMax : ℚ := 0.025
/-- config.py:254 -/
def nocLatTab : Table ℚ := [(0.001, 29), (0.005, 31), (0.01, 34), (0.02, 54), (0.025, 115)]
/-- config.py:255 -/
def nocAreaTab : Table Nat := [(4, 0.047), (8, 0.116)]
/-- config.py:256 -/
def nocPowDynTab : Table Nat := [(4, 16.13), (8, 51.48)]
/-- config.py:257 -/
def nocPowLeakTab : Table Nat := [(4, 0.41), (8, 1.04)]

/-- `if k in d: field = d[k]` (as at config.py:91-95). -/
def Table.update {κ : Type} [DecidableEq κ] (d : Table κ) (k : κ) (field : Option ℚ) : Except PyErr (Option ℚ) :=
  if d.has k then d.get k else .ok field

/-- `NOCConfig.__init__` (config.py:275-295). Line 295 adds a number to `None` if there is no latency:
TypeError. -/
def Noc.init (n : Noc) : Except PyErr Noc :=
  if injRateMax < n.injRate then .error .valueError
  else do
    let n := { n with intraLat := ← nocLatTab.update n.injRate n.intraLat }
    let n := { n with intraPowDyn := ← nocPowDynTab.update n.numPort n.intraPowDyn }
    let n := { n with intraPowLeak := ← nocPowLeakTab.update n.numPort n.intraPowLeak }
    let n := { n with intraArea := ← nocAreaTab.update n.numPort n.intraArea }
    match n.intraLat with
    | some l => .ok { n with interLat := n.htLat + l }
    | none => .error .typeError

/-- `TileConfig` (config.py:302-304, 333-338, 390-394, 402-423), without the size in words, which is in
`Model/Config`, and without the bus size and the counter buffer (397-400, 403), which nothing reads. -/
structure Tile where
  tcuPowDyn : ℚ := 0.25 * 0.2
  tcuPowLeak : ℚ := 0
  tcuArea : ℚ := 0.00145
  edramSizeInKB : Nat := 8192
  edramLat : Option ℚ := none
  edramPowDyn : Option ℚ := none
  edramPowLeak : Option ℚ := none
  edramArea : Option ℚ := none
  instrnMemSize : Nat := 131072
  instrnMemLat : Option ℚ := none
  instrnMemPowDyn : Option ℚ := none
  instrnMemPowLeak : Option ℚ := none
  instrnMemArea : Option ℚ := none
  edramBusLat : ℚ := 1
  edramBusPowDyn : ℚ := 6 / 2
  edramBusPowLeak : ℚ := 1 / 2
  edramBusArea : ℚ := 0.090
  edramCtrlLat : ℚ := 1
  edramCtrlPowDyn : ℚ := 0.475
  edramCtrlPowLeak : ℚ := 0.05
  edramCtrlArea : ℚ := 0.00145
  receiveBufferLat : ℚ := 1 * 2
  receiveBufferPowDyn : ℚ := 4.48 * 2
  receiveBufferPowLeak : ℚ := 0.09 * 2
  receiveBufferArea : ℚ := 0.0022 * 2
  deriving DecidableEq, Repr

/-- config.py:307 -/
def edramLatTab : Table Nat := [(8, 50), (64, 50), (128, 50), (2048, 50), (8192, 50), (16384, 50)]
/-- config.py:308-315 -/
def edramPowDynTab : Table Nat := [(8, 17.2 / 50), (64, 17.2 / 50), (128, 25.35 / 50), (2048, 25.35 / 50),
  (8192, 25.35 / 50), (16384, 25.35 / 50)]
/-- config.py:316-323 -/
def edramPowLeakTab : Table Nat := [(8, 0.46), (64, 0.46), (128, 0.77), (2048, 0.77), (8192, 0.77), (16384, 0.77)]
/-- config.py:324-331 -/
def edramAreaTab : Table Nat := [(8, 0.086), (64, 0.086), (128, 0.121), (2048, 0.121), (8192, 0.121), (16384, 0.121)]
/-- config.py:341-352 and, for cores, 468-479 -/
def instrnMemLatTab : Table Nat := [(256, 1), (512, 1), (1024, 1), (2048, 1), (4096, 1), (8192, 1), (16384, 1),
  (32768, 1), (65536, 1), (131072, 1)]
/-- config.py:353-364 and 480-491 -/
def instrnMemPowDynTab : Table Nat := [(256, 0.16), (512, 0.24), (1024, 0.33), (2048, 0.57), (4096, 1), (8192, 1),
  (16384, 1), (32768, 1), (65536, 1), (131072, 1)]
/-- config.py:365-376 and 492-503 -/
def instrnMemPowLeakTab : Table Nat := [(256, 0.044), (512, 0.078), (1024, 0.147), (2048, 0.33), (4096, 1), (8192, 1),
  (16384, 1), (32768, 1), (65536, 1), (131072, 1)]
/-- config.py:377-388 and 504-515 -/
def instrnMemAreaTab : Table Nat := [(256, 0.00056), (512, 0.00108), (1024, 0.00192), (2048, 0.0041), (4096, 0.0041),
  (8192, 0.0041), (16384, 0.0041), (32768, 0.0041), (65536, 0.0041), (131072, 0.0041)]

/-- config.py:428-432 -/
def Tile.initEdram (t : Tile) : Except PyErr Tile :=
  if edramLatTab.has t.edramSizeInKB then do
    let t := { t with edramLat := ← edramLatTab.get t.edramSizeInKB }
    let t := { t with edramPowDyn := ← edramPowDynTab.get t.edramSizeInKB }
    let t := { t with edramPowLeak := ← edramPowLeakTab.get t.edramSizeInKB }
    let t := { t with edramArea := ← edramAreaTab.get t.edramSizeInKB }
    pure t
  else .ok t

/-- config.py:434-438 -/
def Tile.initInstrn (r8 : ℚ) (t : Tile) : Except PyErr Tile :=
  if instrnMemLatTab.has t.instrnMemSize then do
    let t := { t with instrnMemLat := ← instrnMemLatTab.get t.instrnMemSize }
    let t := { t with instrnMemPowDyn := ← instrnMemPowDynTab.get t.instrnMemSize }
    let t := { t with instrnMemPowLeak := ← instrnMemPowLeakTab.get t.instrnMemSize }
    let t := { t with instrnMemArea := (← instrnMemAreaTab.get t.instrnMemSize).map (· * r8) }
    pure t
  else .ok t

/-- `TileConfig.__init__` (config.py:425-438). -/
def Tile.init (r8 : ℚ) (t : Tile) : Except PyErr Tile := do
  let t ← t.initEdram
  t.initInstrn r8

/-- `CoreConfig` (config.py:445-447, 461-465, 517-534). -/
structure Core where
  ccuPowDyn : ℚ := 1.25 * 0.2
  ccuPowLeak : ℚ := 0
  ccuArea : ℚ := 0.00145 * 2.25
  dataMemSize : Nat := 4096
  dataMemLat : Option ℚ := none
  dataMemPowDyn : Option ℚ := none
  dataMemPowLeak : Option ℚ := none
  dataMemArea : Option ℚ := none
  instrnMemSize : Nat := 131072
  instrnMemLat : Option ℚ := none
  instrnMemPowDyn : Option ℚ := none
  instrnMemPowLeak : Option ℚ := none
  instrnMemArea : Option ℚ := none
  aluPowDyn : ℚ := 2.4 * 32 / 45
  aluPowDivDyn : ℚ := 1.52 * 32 / 45
  aluPowMulDyn : ℚ := 0.795 * 32 / 45
  actPowLeak : ℚ := 0.026
  actPowDyn : ℚ := 0.26 - 0.026
  aluPowOthersDyn : ℚ := 0.373 * 32 / 45
  aluPowLeak : ℚ := 0.27 * 32 / 45
  aluArea : ℚ := 0.00567 * 32 / 45
  actArea : ℚ := 0.0003
  deriving DecidableEq, Repr

/-- config.py:450 -/
def dataMemLatTab : Table Nat := [(256, 1), (512, 1), (1024, 1), (2048, 1), (4096, 1)]
/-- config.py:451 -/
def dataMemPowDynTab : Table Nat := [(256, 0.16), (512, 0.24), (1024, 0.33), (2048, 0.57), (4096, 1)]
/-- config.py:452 -/
def dataMemPowLeakTab : Table Nat := [(256, 0.044), (512, 0.078), (1024, 0.147), (2048, 0.33), (4096, 1)]
/-- config.py:453-459 -/
def dataMemAreaTab : Table Nat := [(256, 0.00056), (512, 0.00108), (1024, 0.00192), (2048, 0.00392), (4096, 0.00392)]

/-- config.py:539-544 -/
def Core.initData (c : Core) : Except PyErr Core :=
  if dataMemLatTab.has c.dataMemSize then do
    let c := { c with dataMemLat := ← dataMemLatTab.get c.dataMemSize }
    let c := { c with dataMemPowDyn := ← dataMemPowDynTab.get c.dataMemSize }
    let c := { c with dataMemPowLeak := ← dataMemPowLeakTab.get c.dataMemSize }
    let c := { c with dataMemArea := ← dataMemAreaTab.get c.dataMemSize }
    pure c
  else .ok c

/-- config.py:546-550 -/
def Core.initInstrn (r8 : ℚ) (c : Core) : Except PyErr Core :=
  if instrnMemLatTab.has c.instrnMemSize then do
    let c := { c with instrnMemLat := ← instrnMemLatTab.get c.instrnMemSize }
    let c := { c with instrnMemPowDyn := ← instrnMemPowDynTab.get c.instrnMemSize }
    let c := { c with instrnMemPowLeak := ← instrnMemPowLeakTab.get c.instrnMemSize }
    let c := { c with instrnMemArea := (← instrnMemAreaTab.get c.instrnMemSize).map (· * r8) }
    pure c
  else .ok c

/-- `CoreConfig.__init__` (config.py:536-550). -/
def Core.init (r8 : ℚ) (c : Core) : Except PyErr Core := do
  let c ← c.initData
  c.initInstrn r8

/-- The numbers of `MVMUConfig` itself (config.py:556-571) and its nested configurations (593-595). -/
structure Mvmu where
  snhLat : ℚ := 1
  snhPowLeak : ℚ := 9.7e-7
  snhPowDyn : ℚ := 9.7e-6 - 9.7e-7
  snhArea : ℚ := 0.00004 / 8 / 128
  muxLat : ℚ := 0
  muxPowLeak : ℚ := 0
  muxPowDyn : ℚ := 0
  muxArea : ℚ := 0
  snaLat : ℚ := 1
  snaPowLeak : ℚ := 0.005
  snaPowDyn : ℚ := 0.05 - 0.005
  snaArea : ℚ := 0.00006
  dac : Dac := {}
  xbar : Xbar := {}
  adc : Adc := {}
  deriving DecidableEq, Repr

/-- The numbers of `Config` (config.py:618-623). -/
structure Numbers where
  noc : Noc := {}
  tile : Tile := {}
  core : Core := {}
  mvmu : Mvmu := {}
  deriving DecidableEq, Repr

/-- The nested `__init__` calls, in the order of the fields (config.py:618-623, 593-595). The error is
that of the first class that raises; pydantic would collect several `ValueError`s in one exception. The
check of `MVMUConfig.__init__` is in `Model/Config`. -/
def Numbers.init (r8 : ℚ) (n : Numbers) : Except PyErr Numbers := do
  let noc ← n.noc.init
  let tile ← n.tile.init r8
  let core ← n.core.init r8
  let dac ← n.mvmu.dac.init
  let xbar ← n.mvmu.xbar.init
  let adc ← n.mvmu.adc.init
  pure { noc := noc, tile := tile, core := core, mvmu := { n.mvmu with dac := dac, xbar := xbar, adc := adc } }

/-- What `Network.__init__` needs (noc.py:44-53): the number of ports not zero, leakage and area not
`None`. A simulator with nodes calls it once for each (node.py:20). The result is the table of numbers
that `get_stats` reads. -/
def Numbers.power (n : Numbers) : Except PyErr Power :=
  if n.noc.numPort = 0 then .error .zeroDivisionError
  else
    match n.noc.intraPowLeak, n.noc.intraArea with
    | some leak, some area => .ok
      { dacPowDyn := n.mvmu.dac.powDyn, dacPowLeak := n.mvmu.dac.powLeak, dacArea := n.mvmu.dac.area
        adcPowDyn := n.mvmu.adc.powDyn, adcPowLeak := n.mvmu.adc.powLeak, adcArea := n.mvmu.adc.area
        xbarPow := n.mvmu.xbar.xbarPow, xbarPowLeak := n.mvmu.xbar.xbarPowLeak, xbarArea := n.mvmu.xbar.xbarArea
        sramXbarPowDyn := n.mvmu.xbar.sramXbarPowDyn, sramXbarPowLeak := n.mvmu.xbar.sramXbarPowLeak
        sramXbarArea := n.mvmu.xbar.sramXbarArea
        calculatorPowDyn := n.mvmu.xbar.calculatorPowDyn, calculatorPowLeak := n.mvmu.xbar.calculatorPowLeak
        calculatorArea := n.mvmu.xbar.calculatorArea
        inMemPowDynRead := n.mvmu.xbar.inMemPowDynRead, inMemPowDynWrite := n.mvmu.xbar.inMemPowDynWrite
        inMemPowLeak := n.mvmu.xbar.inMemPowLeak, inMemArea := n.mvmu.xbar.inMemArea
        outMemPowDyn := n.mvmu.xbar.outMemPowDyn, outMemPowLeak := n.mvmu.xbar.outMemPowLeak
        outMemArea := n.mvmu.xbar.outMemArea
        snhPowDyn := n.mvmu.snhPowDyn, snhPowLeak := n.mvmu.snhPowLeak, snhArea := n.mvmu.snhArea
        muxPowDyn := n.mvmu.muxPowDyn, muxPowLeak := n.mvmu.muxPowLeak, muxArea := n.mvmu.muxArea
        snaPowDyn := n.mvmu.snaPowDyn, snaPowLeak := n.mvmu.snaPowLeak, snaArea := n.mvmu.snaArea
        ccuPowDyn := n.core.ccuPowDyn, ccuPowLeak := n.core.ccuPowLeak, ccuArea := n.core.ccuArea
        coreInstrnPowDyn := n.core.instrnMemPowDyn, coreInstrnPowLeak := n.core.instrnMemPowLeak
        coreInstrnArea := n.core.instrnMemArea
        dataMemPowDyn := n.core.dataMemPowDyn, dataMemPowLeak := n.core.dataMemPowLeak
        dataMemArea := n.core.dataMemArea
        aluPowMulDyn := n.core.aluPowMulDyn, aluPowDivDyn := n.core.aluPowDivDyn, actPowDyn := n.core.actPowDyn
        aluPowOthersDyn := n.core.aluPowOthersDyn, aluPowLeak := n.core.aluPowLeak
        aluArea := n.core.aluArea, actArea := n.core.actArea
        tcuPowDyn := n.tile.tcuPowDyn, tcuPowLeak := n.tile.tcuPowLeak, tcuArea := n.tile.tcuArea
        tileInstrnPowDyn := n.tile.instrnMemPowDyn, tileInstrnPowLeak := n.tile.instrnMemPowLeak
        tileInstrnArea := n.tile.instrnMemArea
        edramPowDyn := n.tile.edramPowDyn, edramPowLeak := n.tile.edramPowLeak, edramArea := n.tile.edramArea
        edramCtrlPowDyn := n.tile.edramCtrlPowDyn, edramCtrlPowLeak := n.tile.edramCtrlPowLeak
        edramCtrlArea := n.tile.edramCtrlArea
        edramBusPowLeak := n.tile.edramBusPowLeak, edramBusArea := n.tile.edramBusArea
        receiveBufferPowDyn := n.tile.receiveBufferPowDyn, receiveBufferPowLeak := n.tile.receiveBufferPowLeak
        receiveBufferArea := n.tile.receiveBufferArea
        nocInterPowDyn := n.noc.interPowDyn, nocInterPowLeak := n.noc.interPowLeak, nocInterArea := n.noc.interArea
        nocIntraPowDyn := n.noc.intraPowDyn, nocIntraPowLeak := leak, nocIntraArea := area
        numPort := n.noc.numPort }
    | _, _ => .error .typeError

end Ramwich.Tables
