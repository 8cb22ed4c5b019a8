# RAMwich formal model — design

Lean 4.33 model of `/repo` (pku-lemonade/RAMwich), theorems about it, and the trusted base.

## Layout

* `lean/Verif/Model/*`  – the model, function by function; every definition cites file:lines of `/repo`.
* `lean/Verif/Spec/*`   – small specifications written without the model's helpers.
* `lean/Verif/Lemmas/*` – helper lemmas.
* `lean/Verif/Props/*`  – the property theorems `Cxx_…` with examples that meet their hypotheses.
* `properties.jsonl` – the properties; `MANIFEST.json` – which theorems prove them.
* `seeded/LOG.jsonl` – edits of the model (wrong programs) and the theorems that fail on them.

## Modelling conventions

* Python exceptions are values: `Except PyErr α`; where Python may mutate before raising, functions
  return `Res σ α = Except PyErr α × σ`, so the state after an error is also modelled.
* `np.int32` = `BitVec 32` (wrap-around, arithmetic shifts), `np.int64` accumulators = `BitVec 64`,
  Python ints = `Int`.
* float64 is modelled by exact rationals `ℚ` in `Model/Mvmu` and everything built on it. `Model/MvmuFloat` is
  the same unit with every operation rounded to 53 bits and with an arbitrary order of the additions of
  `np.einsum`; C77 shows that both give the same answers and registers when `conductance_min = 0`, there is
  no noise and the crossbars have at most 32768 rows. C07 bounds any other analog perturbation below half an
  ADC step. `Model/GetStatsFloat` is the report with every operation rounded; C107 bounds its relative error;
  the numbers of the configuration are arbitrary there, and `Model/ConfigFloat` (C112) is config.py with rounding. Overflow, gradual underflow, NaN/inf and the rounding of the statistic `conversion_errors` are
  not modelled.
* Read noise is an arbitrary oracle argument. `sigmoid` and `tanh` of the VFU are arbitrary functions.
* simpy: concurrent processes are labelled transition systems; code between two `yield`s is one atomic
  step; the scheduler picks ANY enabled step. This over-approximates simpy's order by time, priority and
  event number, so a safety theorem holds for every latency and every tie-break. `simpy.Store` and
  `simpy.Resource(capacity=1)` are FIFO queues. An exception that leaves a process ends the simulation
  (`crashed`), because simpy re-raises it in `env.run`.
* Liveness = "some step is enabled until finished" + a decreasing measure.

## What is modelled

| code | model | theorems |
|---|---|---|
| `config.py` (derived values, `MVMUConfig.__init__`, `DataConfig` formats) | `Config`, `Text` | C54, C55 |
| `config.py` (all lookup tables of latency, power, area), checks of `Network.__init__` | `ConfigTables` | C67–C69 |
| `utils/data_convert.py` | `DataConvert` | C01, C02, C56 |
| `mvmu.py`, `dac/adc/mux/snh/sna/inreg/outreg/rram_xbar/sram_cim_unit.py` | `Mvmu`, `MvmuApi` | C01–C11, C57 |
| `memory.py` | `Memory` | C12–C14 |
| `core.py`, `visitor.py` | `Core`, `CoreApi`, `Ops` | C15–C17, C23, C58 |
| `vfu.py` | `Vfu` | C18–C22 |
| `pipeline.py` | `Pipeline` (transition system); `TimedPipeline` (the same with the clock of simpy) | C24–C27, C59, C60 |
| `dram_controller.py` | `DramController` (transition system) | C28–C36, C63, C64 |
| `router.py`, `noc.py` | `Network` (transition system); `TimedNetwork` (the same with the clock of simpy, and `_monitor_queues`) | C37–C41, C70–C72 |
| `tile.py`, `node.py` (runs) | `System` (transition system of a node: cores, controllers, routers, tile programs) | C41–C46, C78–C80, C83–C85 |
| `core.py`, `pipeline.py`, `visitor.py`, `tile.py` together, with a clock | `TimedSystem` (a node whose cores have pipelines; routers and tile processes may act at any time) | C61, C62, C65, C66 |
| `mvmu.py`, `rram_xbar.py`, `dac.py`, `adc.py`, `data_convert.py` with float64 rounding | `MvmuFloat` (any order of summation, with or without fused multiply-add) | C77 |
| all `get_stats` and `stats.py` (with the totals of `print`) with float64 rounding | `GetStatsFloat` | C107, C108 |
| all processes of a node with one clock | `ClockedNode` (`TimedSystem` and `TimedNetwork` with the same clock; tile processes act at once) | C73–C76, C81, C82 |
| `stats.py`, all `get_stats` | `Stats` (heap of `Stats` objects), `GetStats` | C47–C49 |
| all `reset` methods, objects between runs | `Simulator`, `NodeRun` | C50 |
| loaders of `ramwich.py`, `ops.py` | `Loader`, `Text` | C51–C53 |
| `RAMwich.__init__` and `run` up to the simulation; what the components take from the configuration; `examples/mlp_l4_mnist` | `Run`, `Spec/Mnist` | C86 |
| the node as a whole, as equations between DRAM words (no further code modelled) | `Spec/Dataflow` | C87 |
| the equations in terms of the files; what the MNIST example computes | `Spec/FileNode`, `Spec/Perceptron` | C88, C89 |
| several runs with one simulator (tests/test_mlp_on_mnist_multi.py) | `Spec/Session` | C90 |
| the MNIST example against the network in rational numbers | `Spec/Accuracy` | C91 |
| programs that can hang: a check of their texts with reads that wait; the MNIST example | `Spec/Hang`, `Spec/MnistHang` | C92 |
| the equations as invariants of all states of all runs | `Spec/Dataflow` | C93 |
| programs without writes for two waiting processes always end | `Spec/Apart` | C94 |
| the counters and the report as sums over the program texts | `Spec/Ledger` | C95 |
| `RAMwich.run`: the nodes of a simulator in one environment | `Model/WholeRun`, `Spec/WholeRun` | C96 |
| `RAMwich.run` from the files to the report, call after call | `Spec/Simulation` | C97 |
| The time of a simulation from below | `Spec/LeastTime` | C98 |
| The report from the program texts; energies between two bounds | `Spec/ReportTime` | C99 |
| A check with the clock but without data; `run` can return | `Spec/ClockCheck`, `Spec/MnistClock` | C100 |
| `run` without an activation | `Spec/Simulation` | C101 |
| Cores without `hlt`; tests/test_tile_features.py | `Spec/Simulation`, `Spec/TileTest` | C102, C103 |
| tests/test_mlp_on_mnist_multi.py (sharing out of the samples, `process_batch`, accuracy) | `Workers`, `Spec/Workers` | C104 |
| tests/test_core_features.py | `Spec/CoreTest` | C105, C106 |
| tests/test_dram_controller.py (processes beside a controller) | `DramClients`, `Spec/DramClients` | C109 |
| tests/test_mvm.py | `MvmTest`, `Spec/MvmTest` | C110 |
| tests/test_load.py | `Loader`, `Mvmu`, `Spec/LoadTest` | C111 |
| config.py (float64 constants, tables and default formulas), the report with them | `ConfigFloat`, `Spec/ConfigFloat` | C112 |
| utils/visualize.py (matplotlib only by the check of lengths in `bar`) | `Visualize`, `Spec/Visualize` | C113 |
| tests/test_mlp_on_mnist_multi.py (workers that fail, lines that are logged) | `Collect`, `Spec/Collect` | C114 |
| tests/test_mlp_on_mnist_single.py | `Single` | C115 |

How they are proved: C01–C11 loop invariants over the bit-serial loop, then slice algebra; C12–C17 list
lemmas and induction over call histories; C24–C46 inductive invariants of the transition systems, ghost
histories (`log`, `sent`, `answers`, `submitted`) that the code does not have, and decreasing measures;
C44 an invariant that compares two runs through their histories, C78 the same in the other direction (by induction over the finished run, everything it does has been done by the run at rest), C79 a measure that every action but the passing of time lowers, C80 the comparison of C44 with a history of every tile (each operation that a run is about to do was done without an error by the finished run), C81 carries C78–C80 over along C73 (a state at rest of the node with the clock is one of the node without, by waiting until no timeout is left), C82 a potential (the time still needed if everything happened one after the other) that no action raises and that every tick lowers unless the node is at rest, C83 a balance for every weight of requests (submitted = weight of the histories, so the submitted requests are a permutation of what the histories say), C84 two runs on different data compared after all contents are replaced by zeros (`books`, `blankEv`); C85 joins an analysis of the program texts (registers with known contents, DRAM words as sets of bits) to the transition system: the moves of the check are turned into a complete run with all latencies 0, and C44, C78–C82 carry this run over to all latencies and schedules; C92 does the same with moves in which reads wait (the waiting reads of the controller correspond one to one to the waiting processes of the check, and one pass over the one list is one pass over the other); C61, C70, C73 refinements (timed node to plain node; timed routers to plain routers; node with one clock to both); C47–C49 algebra on association lists
over a heap; C50–C53 structural induction.

## Trusted base

* The Lean 4.33.0 kernel. Every theorem depends at most on `propext`, `Classical.choice`, `Quot.sound`
  (`#print axioms`; `vcheck` audits all of them). No `sorry`, no own axioms, no `native_decide`.
* That the model is a faithful reading of `/repo` (each definition cites its source; simplifications are
  stated in the comment of the definition).
* simpy 4 semantics as described above. One place uses more: `Net.stopStep` (see its comment) uses that
  events of one moment are processed in the order in which they were triggered.
* numpy semantics: `int32` arithmetic wraps; casts and `np.round` as in `Model/Py.lean`; slices clamp.
* Python/pydantic: `int` refuses more than 4300 digits; pydantic converts `np.int32`/`np.int64` to Python
  `int` when a request or operation is created (so addresses read from registers are exact ints);
  conversions of text and floats in lax mode are an arbitrary function (`Lax`); which member of the union
  pydantic takes for an operation without `type` is an arbitrary choice (`pick`).

Not modelled: float64 overflow and underflow, logging and printing (except the totals of `StatsDict.print` and visualize.py), file formats (the outcome of
reading a file is an argument), drawing by matplotlib, simpy's event heap.

## Findings

Properties that one would expect and that are false of the code; each is refuted by a theorem.

| where | what | theorem |
|---|---|---|
| mvmu.py | a weight outside the format wraps around instead of being clamped | C02_out_of_range_witness |
| mvmu.py, inreg.py | negative inputs enter as unsigned numbers modulo 2^activation_width; the product is wrong | C04_negative_input_witness |
| inreg.py | after a product, registers with negative inputs keep a residue of −1 | C09_negative_input_residue_witness |
| mvmu.py | a DAC resolution above 1 recombines input slices with wrong weights | C05_dac_resolution_witness |
| rram_xbar.py | a non-zero minimum conductance adds a bias to every product | C08_gmin_witness |
| rram_xbar.py | with a positive smallest conductance float64 rounding changes results | C77_offset_rounds_differently |
| rram_xbar.py | noise of half an ADC step changes the result | C07_half_step_visible |
| core.py | a core without MVMUs cannot write cache address 0 | C15_no_units_witness |
| vfu.py | `mul` wraps in int32 before the result is clipped | C20_mul_wraps_witness |
| visitor.py | operator precedence in the VFU latency | C23_latency_excess_witness |
| dram_controller.py | removing from the list that is iterated over skips a ready read, which then waits, possibly for ever | C32_skip_witness, C32_skipped_forever |
| dram_controller.py | because of that a program that finishes in one order of events waits for ever in another, although every word is written once | C78_timing_decides |
| dram_controller.py | the MNIST example of the repository can hang in this way, for every image and all weights: on tile 3 cores 7 and 6 wait, the write of the words from 1680 serves core 7, skips core 6, and no later write wakes it; in other orders of events the same program ends | C92_mnist |
| dram_controller.py | stopping the controller with a read that waits for data ends the simulation by an exception | C45_stop_fails_nothing (when not) |
| router.py | `packets_sent` may exceed `packets_created` for a moment | C39_lag_witness |
| router.py | the internode branch is unreachable; packets for another node raise KeyError | C40_no_internode, C40_other_node |
| router.py:138 | the comment says that tiles 0 and 1 count as another node; the code treats their traffic as intranode | C40_latency_any |
| router.py | head-of-line blocking: programs with matching sends and receives deadlock | C41_blocked, C41_deadlock |
| noc.py | `queue_busy_cycles`, from which the dynamic energy of the network follows, does not count packets under way: with latency 50 a lone packet costs at most one cycle | C71_not_in_flight |
| tile.py | the program of a tile without `halt`: `active_cycles`, with which its leakage energy is multiplied, may be 0 although its cores work | C75_no_halt_witness |
| noc.py, ramwich.py | `_monitor_queues` never ends by itself, so a deadlocked program makes `env.run` loop for ever instead of raising | C81_always_events, C81_deadlock_hangs |
| config.py | `have_sram_xbar` and `have_rram_xbar` given by the user are not cleared | C54_flag_witness |
| stats.py | `merge` stores the object of the other dictionary: later merges change both | C47_sharing_witness |
| sram_cim_unit.py | the area formula adds the number of calculators instead of their area | C48_sram_area_witness |
| node.py | `get_stats` of a node without tiles raises KeyError | C48_no_tiles_witness |
| config.py, get_stats | a size without table entry is accepted and leaves `None`, `get_stats` raises TypeError at the end of the simulation | C48_succeeds, C68_report_iff (exact condition) |
| config.py | derived fields (`init=False`) are accepted from the user and silently overwritten if the size is in the table | C67_ignored, C67_kept |
| config.py:119 | the table of crossbar powers is dead: the value is overwritten | C67_xbar_power |
| config.py | an injection rate that is not in the table and ≤ 0.025 raises TypeError instead of a message | C67_rejected |
| reset | a unit without RRAM crossbars cannot be reset (AttributeError); counters of the SRAM array, cycle counters and pending reads survive; a tile whose program has no `halt` leaves its controller and router running | C50_sram_only, C50_sram_counts_witness, C50_times_kept, C50_pending_kept, C50_not_halted, C50_early_end_witness |
| ramwich.py | a weight key with a number of more than 4300 digits raises outside the `try` | C52_long_id |
| ramwich.py | `run()` without activation marks the whole DRAM of tile 0 valid: loads no longer wait for stores, the result depends on the order of events | C53_default_race_witness, C101_race, C101_first_tile |
| tile.py, core.py | a tile with a Halt and a core without `hlt` (an unused one, for instance) never returns and `env.run` hangs | C102_hangs, C102_files |
| tests/test_tile_features.py | hangs (tiles 0 and 1 have a Halt and no `hlt`); with the `hlt`s its assertion fails when an expected value exceeds 255 | C102_test_tile_features, C103_assertion |
| tests/test_core_features.py | ends, but its assertion fails when an expected value exceeds 255 (outputs are clipped to 0..255) | C105_assertion |
| tests/test_core_features.py: weights | only the parity of an integer weight is held (2 counts as 0, 3 as 1); 128 products 1·1 add up to 127 | C106_parity, C106_even, C106_ones |
| dram_controller.py | two processes that read the same word which a third writes later: one of them never returns (the processes of test_dram_controller.py with a second reader) | C109_two_readers_witness |
| tests/test_mvm.py, adc.py | with the example configuration a converter can saturate (128 cells of value up to 3, 8 bits): weights 3/256 and a vector of ones give 255/65536 instead of 384/65536; rows of weights of at most 1/512 give 0 | C110_saturated, C110_small |
| utils/visualize.py, run.py | `summarize_results` reads entries that no report of `get_stats` has: the call that is commented out would print 0 operations and draw nothing | C113_report |
| utils/visualize.py | four averages are drawn against the types of operations: ValueError unless there are one or four types | C113_types |
| tests/test_mlp_on_mnist_multi.py | samples of a worker that fails are left out of the accuracy, which may rise by that; a worker without samples is logged as failed | C114_failure_witness, C114_idle |

Observed, not stated as theorems: The latency of a packet between nodes would count the
intranode latency twice (router.py:149 adds `noc_inter_lat`, which already contains it). The example
configuration of `mlp_l4_mnist` writes `adc_type` for the field `type` and puts numbers of tiles under
`tile_config`; pydantic ignores such keys. With the latencies of its configuration the example of `mlp_l4_mnist` can come
to its end (C100; reads are skipped there, but later writes release them). With e.g. `alu_lat: 40` a simulation of the
model outside of Lean ends with the skipped read of C92_mnist.
