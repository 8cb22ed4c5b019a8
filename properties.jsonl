{"id": "C01", "title": "Weight slices recombine to the quantised weight", "statement": "After MVMU.load_weights(W), for every matrix entry w the values held by the crossbars (RRAM conductance level or SRAM ternary cell), each weighted by 2^(its stored-bit position), sum to sign(w) * (round_half_even(|w| * 2^weight_frac_bits) mod 2^weight_width); when the rounded magnitude is below 2^weight_width this is w rounded to the nearest multiple of 2^-weight_frac_bits (half-even).", "quantifier": "every crossbar size, every storage_config (any mix/order of 1,2,3,4-bit RRAM and SRAM cells) whose bits add up to the weight width, every weight matrix", "why_tests_cant": "the space of storage configurations x weights is unbounded; tests fix one configuration and a few random matrices", "anchors": ["src/ramwich/mvmu.py:MVMU.load_weights", "src/ramwich/utils/data_convert.py:extract_bits,float_to_fixed,int_to_conductance", "src/ramwich/config.py:Config.validate_and_calculate"]}
{"id": "C02", "title": "Out-of-range weights are not clamped", "statement": "The claim 'every weight is stored within half an LSB' is false: a weight whose rounded magnitude reaches 2^weight_width is stored modulo 2^weight_width without an error (e.g. w = 1.0 in format Q0.8 is stored as 0). It holds exactly for the weights whose rounded magnitude is below 2^weight_width.", "quantifier": "every weight value and weight format", "why_tests_cant": "boundary behaviour at every width; random tests with small weights never reach it", "anchors": ["src/ramwich/mvmu.py:MVMU.load_weights", "src/ramwich/utils/data_convert.py:extract_bits"]}
{"id": "C03", "title": "Input bit-slices recombine to the input modulo 2^(iterations*resolution)", "statement": "The successive slices that execute_mvm takes from an MVMU input register holding x satisfy 0 <= slice < 2^dac_resolution and sum_i slice_i * 2^(i*resolution) = x mod 2^(iterations*resolution), where iterations = ceil(activation_width / resolution); afterwards the register holds x shifted right arithmetically by iterations*resolution.", "quantifier": "every 32-bit register content (negative ones included), activation width and DAC resolution", "why_tests_cant": "2^32 register values x all widths and resolutions", "anchors": ["src/ramwich/blocks/inreg.py:InputRegisterArray.read", "src/ramwich/mvmu.py:MVMU.execute_mvm"]}
{"id": "C04", "title": "MVM is exact: output register = W.x modulo 2^32", "statement": "With DAC resolution 1, rram_conductance_min = 0, no read noise and no ADC saturation, MVMU.execute_mvm leaves in output register r the int32 value of sum_j W[r][j]*x[j], where W is the stored signed integer weight and x[j] the input register content modulo 2^activation_width.", "quantifier": "every crossbar size, columns-per-ADC divisor, storage configuration, weight matrix, input vector, ADC resolution/type, conductance maximum and supply voltage", "why_tests_cant": "correctness of a doubly bit-sliced, muxed, shift-and-add product for all shapes cannot be enumerated", "anchors": ["src/ramwich/mvmu.py:MVMU.execute_mvm", "src/ramwich/blocks/sna.py:SNAArray.calculate", "src/ramwich/blocks/adc.py:ADCArray.convert", "src/ramwich/blocks/mux.py:MuxArray.select", "src/ramwich/blocks/rram_xbar.py:RRAMXbarArray.execute_mvm", "src/ramwich/blocks/sram_cim_unit.py:SRAMCIMUnitArray.execute_mvm"]}
{"id": "C05", "title": "MVM with saturating ADCs and any DAC resolution: exact formula", "statement": "For every DAC resolution, execute_mvm leaves in output register r the int32 value of sum_i 2^i * sum_k 2^(stored_bit k) * c_k(sum_j w_k[r][j]*slice_i(x_j)), where c_k clamps to +-(2^adc_resolution - 1) for RRAM crossbars and is the identity for SRAM crossbars. In particular for DAC resolution > 1 the iteration weight is 2^i, not 2^(i*resolution), so the result is in general NOT W.x (a witness is proved).", "quantifier": "every configuration, weights, inputs", "why_tests_cant": "unbounded configuration space; existing tests use resolution 1 only", "anchors": ["src/ramwich/mvmu.py:MVMU.execute_mvm", "src/ramwich/blocks/sna.py:SNAArray.calculate", "src/ramwich/blocks/adc.py:ADCArray.convert"]}
{"id": "C06", "title": "Storage configuration does not change the MVM result", "statement": "Two MVMUs loaded with the same weights and inputs that differ only in how the weight bits are split over crossbars (any two storage_configs of the same total width, RRAM, SRAM or hybrid), with noise off, conductance minimum 0 and no ADC saturation, produce identical output registers.", "quantifier": "all pairs of storage configurations, all weights and inputs", "why_tests_cant": "quantifies over pairs of configurations", "anchors": ["src/ramwich/config.py:DataConfig.storage_config", "src/ramwich/mvmu.py:MVMU.execute_mvm"]}
{"id": "C07", "title": "Sub-half-LSB analog noise is invisible", "statement": "If on every read the perturbation of each analog crossbar column (read noise, or floating point error) stays strictly below half an ADC step, execute_mvm produces exactly the noise-free output registers.", "quantifier": "every noise realisation within the bound, every configuration/weights/inputs", "why_tests_cant": "continuous space of noise draws", "anchors": ["src/ramwich/blocks/rram_xbar.py:RRAMXbarArray.execute_mvm", "src/ramwich/blocks/adc.py:ADCArray.convert"]}
{"id": "C08", "title": "A non-zero minimum conductance biases the product", "statement": "With rram_conductance_min = 0 the ADC's unrounded reading of a column is exactly the integer dot product; with rram_conductance_min != 0 it is offset by (min/step) * sum_j sign(w_j)*slice(x_j), so the product is wrong in general (a witness is proved).", "quantifier": "every conductance range, cell width, weights and inputs", "why_tests_cant": "real-valued parameters; default config hides it", "anchors": ["src/ramwich/utils/data_convert.py:int_to_conductance", "src/ramwich/blocks/adc.py:ADCArray.__init__", "src/ramwich/blocks/adc.py:ADCArray.convert"]}
{"id": "C09", "title": "MVM ignores the previous output and consumes its input", "statement": "execute_mvm's resulting output registers do not depend on the output registers' earlier contents; it leaves weights unchanged; and if all inputs were in [0, 2^activation_width) (resolution 1) it leaves every input register zero, so a second execute_mvm without rewriting the inputs yields all-zero outputs.", "quantifier": "all states, weights and inputs", "why_tests_cant": "history-dependence needs all prior states", "anchors": ["src/ramwich/mvmu.py:MVMU.execute_mvm", "src/ramwich/blocks/inreg.py:InputRegisterArray.read", "src/ramwich/blocks/outreg.py:OutputRegisterArray.clean_cells"]}
{"id": "C10", "title": "ADC conversion: range, accuracy and overflow accounting", "statement": "Every ADCArray.convert output lies in [-(2^res-1), 2^res-1]; an unclipped output differs from the exact current difference by at most one step, exactly zero when both currents are whole steps; overflow_times grows by exactly the number of clipped entries; conversions grows by the array size.", "quantifier": "all analog inputs and ADC/cell configurations", "why_tests_cant": "continuous inputs", "anchors": ["src/ramwich/blocks/adc.py:ADCArray.convert"]}
{"id": "C11", "title": "Reading a product back: floor by the weight scale", "statement": "read_from_register on an MVMU output register returns floor(register / 2^weight_frac_bits) of the signed 32-bit register, without changing it.", "quantifier": "all register contents and weight formats", "why_tests_cant": "all 2^32 contents", "anchors": ["src/ramwich/mvmu.py:MVMU.read_from_outreg", "src/ramwich/core.py:Core.read_from_register"]}
{"id": "C12", "title": "Memory read-after-write and frame", "statement": "After a successful Memory.write(start, values) a read of any in-range block returns, cell by cell, the written value inside [start,start+len) and the old value outside; reads never change cells; hence after any sequence of reads and writes each cell holds the last value written to it (0 if none).", "quantifier": "every operation history, address and length", "why_tests_cant": "unbounded histories", "anchors": ["src/ramwich/blocks/memory.py:Memory.read", "src/ramwich/blocks/memory.py:Memory.write"]}
{"id": "C13", "title": "Memory bounds: reject without effect", "statement": "Memory.read(start,length) succeeds iff 0 <= start, start+length <= size and length > 0; Memory.write succeeds iff the block lies in [0,size]; a rejected call changes neither cells nor statistics.", "quantifier": "all integer starts/lengths (negative included)", "why_tests_cant": "unbounded integers", "anchors": ["src/ramwich/blocks/memory.py:Memory.read", "src/ramwich/blocks/memory.py:Memory.write"]}
{"id": "C14", "title": "Memory statistics are the exact operation history", "statement": "After any sequence of reads and writes, read/write/total operation counters equal the sums of the batch arguments of the successful calls and the cell counters the sums of their lengths, so total = read + write in both.", "quantifier": "every operation history", "why_tests_cant": "unbounded histories", "anchors": ["src/ramwich/blocks/memory.py:MemoryStats"]}
{"id": "C15", "title": "Core write address map", "statement": "Core.write_to_register(start,data) with non-empty data succeeds iff the range lies entirely inside one MVMU's input register window or entirely inside the cache window; then it changes exactly those registers and no other architectural state; otherwise it raises IndexError and changes nothing. In particular no write can alter an MVMU output register.", "quantifier": "all core configurations, addresses, lengths, contents", "why_tests_cant": "all address ranges incl. every boundary-straddling one", "anchors": ["src/ramwich/core.py:Core.write_to_register", "src/ramwich/core.py:Core._overlaps_output_registers", "src/ramwich/core.py:Core._get_mvmu_id_from_address"]}
{"id": "C16", "title": "Core read address map", "statement": "Core.read_from_register(start,length) with length>0 succeeds iff the range lies inside one MVMU's output register window or inside the cache window, returns the contents of exactly those locations, and changes no register content.", "quantifier": "all core configurations, addresses, lengths, contents", "why_tests_cant": "all address ranges", "anchors": ["src/ramwich/core.py:Core.read_from_register"]}
{"id": "C17", "title": "Register file behaves as a flat address space", "statement": "For cache addresses, a successful read after any sequence of successful register writes returns for each address the last value written; writes to input registers never change what any later read returns until an MVM executes.", "quantifier": "all operation histories", "why_tests_cant": "unbounded histories", "anchors": ["src/ramwich/core.py:Core"]}
{"id": "C18", "title": "VFU results always fit the clip range", "statement": "Every successful VFU.calculate returns a vector of the first operand's length with all elements in [-2^activation_width, 2^activation_width - 1].", "quantifier": "all opcodes, operands, widths", "why_tests_cant": "all operands", "anchors": ["src/ramwich/blocks/vfu.py:VFU.calculate"]}
{"id": "C19", "title": "VFU integer semantics", "statement": "For add, sub, min, max, relu, and, or, not, mul, div: when the exact intermediate integer fits in int32, calculate returns elementwise the clamp of the mathematical result (mul: floor(a*b/2^f); div: floor(a*2^f/b)).", "quantifier": "all operands of equal length", "why_tests_cant": "2^64 operand pairs per element", "anchors": ["src/ramwich/blocks/vfu.py:VFU"]}
{"id": "C20", "title": "VFU multiply can wrap before clipping", "statement": "The claim 'mul saturates' is false: when |a*b| >= 2^31 the int32 product wraps before shift and clip, so the product of two positive in-range operands can come out negative or zero (witness in the shipped Q8.8 format). mul is correct exactly under the no-int32-overflow condition.", "quantifier": "all operands", "why_tests_cant": "needs large operands", "anchors": ["src/ramwich/blocks/vfu.py:VFU._handle_mul"]}
{"id": "C21", "title": "VFU errors and operand arity", "statement": "calculate raises ZeroDivisionError iff opcode is div and some divisor is 0, ValueError iff a binary opcode is given no second operand; failing calls leave all VFU statistics unchanged; unary opcodes ignore the second operand; an int operand stands for an array with one element and as second operand needs a first one of length one, ints that do not fit in 32 bits raise OverflowError.", "quantifier": "all opcodes/operands", "why_tests_cant": "all operands", "anchors": ["src/ramwich/blocks/vfu.py:VFU.calculate"]}
{"id": "C22", "title": "VFU statistics partition", "statement": "After any sequence of calculate calls total_operations = mul+div+act+other and each class equals the summed vector lengths of the successful calls of that class.", "quantifier": "every call history", "why_tests_cant": "unbounded histories", "anchors": ["src/ramwich/blocks/vfu.py:VFU._update_stats"]}
{"id": "C23", "title": "Execution latencies", "statement": "The VFU latency alu_lat*(vec+n-1)//n equals alu_lat*ceil(vec/n) when alu_lat = 1, is never below it, exceeds it by less than alu_lat, and is strictly larger for some alu_lat>1 (witness); the MVM latency equals adc latency * (ceil(activation_width/dac resolution)+2); latencies are monotone in vec; Set and Copy take one access of the data memory, whatever their length, and a halt one cycle.", "quantifier": "all vector lengths, ALU counts and latencies", "why_tests_cant": "all parameters", "anchors": ["src/ramwich/visitor.py:CoreExecutionTimingVisitor"]}
{"id": "C24", "title": "Pipeline executes the program in order, exactly once", "statement": "Under every scheduling of the stage processes, at any time the sequence of operations accepted by each stage is a prefix of the program, later stages never overtake earlier ones, and no operation is accepted twice or skipped by a stage.", "quantifier": "every program, number of stages, scheduling/latencies, point in time", "why_tests_cant": "all interleavings", "anchors": ["src/ramwich/pipeline.py:Stage.run", "src/ramwich/pipeline.py:Pipeline"]}
{"id": "C25", "title": "Pipeline stops exactly at the first hlt", "statement": "When the pipeline reports completion, every stage has accepted exactly the program up to and including its first hlt; operations after it are never executed.", "quantifier": "every program and scheduling", "why_tests_cant": "all interleavings", "anchors": ["src/ramwich/pipeline.py:Stage.run", "src/ramwich/pipeline.py:Pipeline._monitor_for_completion"]}
{"id": "C26", "title": "Pipeline progress", "statement": "If the program contains a hlt and every operation's event eventually fires, the pipeline cannot get stuck and completes after finitely many steps under every scheduling; if it contains no hlt (e.g. the empty program) completion is never signalled.", "quantifier": "every program and scheduling", "why_tests_cant": "liveness over all schedules", "anchors": ["src/ramwich/pipeline.py:Pipeline"]}
{"id": "C27", "title": "Pipeline buffers hold at most one operation", "statement": "In every reachable state each inter-stage buffer holds at most one operation, and no operation is lost or duplicated: the feed is exactly what is in flight plus what was executed.", "quantifier": "every program and scheduling", "why_tests_cant": "all interleavings", "anchors": ["src/ramwich/pipeline.py:Pipeline._build"]}
{"id": "C28", "title": "DRAM controller: reads return the latest completed writes, only valid data", "statement": "Under every schedule, a read request completes only when all its cells have been written (or preloaded), and returns for every cell the value of the last write completed before it (or the preloaded value).", "quantifier": "every request stream, schedule, address range", "why_tests_cant": "all interleavings of concurrent requesters", "anchors": ["src/ramwich/blocks/dram_controller.py:DRAMController"]}
{"id": "C29", "title": "DRAM controller: writes complete in submission order", "statement": "The sequence of completed writes is always a prefix of the sequence of submitted writes, so the DRAM contents are those obtained by applying that prefix in order.", "quantifier": "every request stream and schedule", "why_tests_cant": "all interleavings", "anchors": ["src/ramwich/blocks/dram_controller.py:DRAMController.request_handler", "src/ramwich/blocks/dram_controller.py:DRAMController._write_thread"]}
{"id": "C30", "title": "DRAM controller: a read observes every earlier-submitted write", "statement": "When a read completes, every write submitted before that read was submitted has already been applied.", "quantifier": "every request stream and schedule", "why_tests_cant": "all interleavings", "anchors": ["src/ramwich/blocks/dram_controller.py:DRAMController.request_handler"]}
{"id": "C31", "title": "DRAM controller: no request lost or answered twice", "statement": "At every moment each submitted request is in exactly one of: waiting in the queue, waiting for data, on the bus, answered; each is answered at most once.", "quantifier": "every request stream and schedule", "why_tests_cant": "all interleavings", "anchors": ["src/ramwich/blocks/dram_controller.py:DRAMController"]}
{"id": "C32", "title": "DRAM controller: waking of waiting reads", "statement": "The claim 'after a write completes no waiting read has all its data available' is false: because the waiting list is modified while it is iterated, a ready read right after another ready one is skipped, and with no later write it waits forever (witness). What holds: every released read is ready, the first ready waiting read is always released, a ready read is skipped only if its predecessor in the list was released, waiting reads keep their order.", "quantifier": "every waiting list and validity map", "why_tests_cant": "needs two readers waiting for the same write", "anchors": ["src/ramwich/blocks/dram_controller.py:DRAMController._update_ready_requests"]}
{"id": "C33", "title": "DRAM controller: progress when reads do not pile up", "statement": "If at most one read is ever waiting, then whenever all submitted writes are in range and cover every waiting read, every submitted request is answered after finitely many controller steps.", "quantifier": "every request stream and schedule", "why_tests_cant": "liveness", "anchors": ["src/ramwich/blocks/dram_controller.py:DRAMController"]}
{"id": "C34", "title": "DRAM controller: out-of-range requests never corrupt memory", "statement": "A request whose block is not inside the DRAM never changes a cell and never gets an answer: it either aborts the simulation with an error or waits.", "quantifier": "all integer addresses/lengths", "why_tests_cant": "all addresses incl. Python negative slices", "anchors": ["src/ramwich/blocks/dram_controller.py:DRAMController", "src/ramwich/blocks/memory.py:Memory.write"]}
{"id": "C35", "title": "DRAM validity is monotone", "statement": "A cell marked valid stays valid until reset(); only completed writes (or preloading) make cells valid, and exactly the written cells.", "quantifier": "every history", "why_tests_cant": "all interleavings", "anchors": ["src/ramwich/blocks/dram_controller.py:DRAMController._write_thread"]}
{"id": "C36", "title": "DRAM controller statistics", "statement": "read_requests/write_requests/total_requests equal the summed batch counts of submitted requests, operating_time the summed latencies of answered ones, max_wait <= total_wait, and each answered request waited at least its own latency; the bus serves one request at a time.", "quantifier": "every history", "why_tests_cant": "all interleavings", "anchors": ["src/ramwich/blocks/dram_controller.py:DRAMControllerStats"]}
{"id": "C37", "title": "Network delivers each sender-receiver stream in order, exactly once", "statement": "For every pair of tiles, what the receiver has read, then the receive buffer, then the packet in flight, then the queued packets for that receiver is always exactly the sequence of packets sent: no loss, duplication, reordering or corruption.", "quantifier": "every number of tiles, traffic pattern, schedule", "why_tests_cant": "all interleavings", "anchors": ["src/ramwich/blocks/router.py:Router"]}
{"id": "C38", "title": "Receive buffers hold at most one packet per source", "statement": "Every receive buffer holds at most one packet, always from its own source, and a tile never has a buffer for itself.", "quantifier": "every schedule", "why_tests_cant": "all interleavings", "anchors": ["src/ramwich/blocks/router.py:Router.run", "src/ramwich/blocks/router.py:Router.receive_packet"]}
{"id": "C39", "title": "Router packet accounting", "statement": "In every reachable state packets_sent = internode + intranode; packets_sent of a sender never exceeds the packets it has put into its queue and exceeds packets_created at most by the add_send_packet calls that are in their one-cycle timeout (so 'sent <= created' is false for a moment, witness); packets_received and packets_read count exactly the packets delivered to and read from the receive buffers.", "quantifier": "every schedule", "why_tests_cant": "all interleavings", "anchors": ["src/ramwich/blocks/router.py:RouterStats"]}
{"id": "C40", "title": "All traffic is intra-node", "statement": "Since a router can only address tiles of its own node, _get_latency classifies every deliverable packet as intra-node: packets_sent_internode is always 0 and every hop costs noc_intra_lat.", "quantifier": "every configuration and pair of tiles", "why_tests_cant": "all ids", "anchors": ["src/ramwich/blocks/router.py:Router._get_latency", "src/ramwich/blocks/noc.py:Network.get_router"]}
{"id": "C41", "title": "Head-of-line blocking can deadlock matched programs", "statement": "The claim 'if every send has a matching receive the node finishes' is false: a sender whose first queued packet targets a full buffer blocks later packets to other tiles (witness); delivery to a tile is guaranteed to progress only for the head packet.", "quantifier": "every traffic pattern", "why_tests_cant": "deadlock over schedules", "anchors": ["src/ramwich/blocks/router.py:Router._send_thread"]}
{"id": "C42", "title": "Send/receive moves a memory block between tiles", "statement": "A Send(mem_addr=a, width=w, vec=v) matched by a Recv(mem_addr=b, width=w, vec=v) makes the receiver's DRAM block [b,b+v*w) equal to the sender's block [a,a+v*w) as read by the Send, and mark it valid, leaving all other receiver cells unchanged.", "quantifier": "all addresses, widths, vecs, contents", "why_tests_cant": "all shapes and contents", "anchors": ["src/ramwich/tile.py:Tile.execute_send", "src/ramwich/tile.py:Tile.execute_receive"]}
{"id": "C43", "title": "Width mismatch on receive leaves memory unchanged", "statement": "If a received packet's length differs from the Recv width, the Recv reports failure, writes nothing to DRAM, and the packets read so far (including the mismatched one) are consumed.", "quantifier": "all packet streams", "why_tests_cant": "all shapes", "anchors": ["src/ramwich/tile.py:Tile.execute_receive"]}
{"id": "C44", "title": "Functional result is independent of timing", "statement": "For a program in which no two different values are ever written to the same DRAM cell, the data returned by every load/send, all register contents at each program point and the final DRAM contents are the same for every scheduling (hence for every latency configuration).", "quantifier": "every program, every pair of schedules", "why_tests_cant": "all interleavings", "anchors": ["src/ramwich/core.py:Core.run", "src/ramwich/tile.py:Tile.run", "src/ramwich/blocks/dram_controller.py:DRAMController"]}
{"id": "C45", "title": "Halt means everything is finished", "statement": "When a tile's Halt completes, all its cores have executed their hlt, its send queue is empty with no packet in flight, and its DRAM controller has no outstanding request; hence stopping the controller fails no request.", "quantifier": "every program and schedule", "why_tests_cant": "all interleavings", "anchors": ["src/ramwich/tile.py:Tile.execute_halt", "src/ramwich/blocks/router.py:Router.stop_after_all_packets_sent"]}
{"id": "C46", "title": "A core's memory operations are sequential", "statement": "Each core has at most one outstanding DRAM request at any time; a load's destination registers are written before the core's next operation executes and a store is applied to DRAM before the next operation executes.", "quantifier": "every program and schedule", "why_tests_cant": "all interleavings", "anchors": ["src/ramwich/visitor.py:CoreExecutionVisitor.visit_load", "src/ramwich/visitor.py:CoreExecutionVisitor.visit_store"]}
{"id": "C47", "title": "Merging statistics is additive", "statement": "StatsDict.merge adds component-wise: when the two dictionaries hold no common Stats object, for each component the merged entry is the sum of both sides' entries, no component is lost, and summary() of the merge is the sum of the summaries; therefore totals do not depend on the merge order. Without that condition the claim is false: merge stores the other dictionary's object, so a later merge changes both (witness).", "quantifier": "all dictionaries", "why_tests_cant": "unbounded", "anchors": ["src/ramwich/stats.py:StatsDict.merge", "src/ramwich/stats.py:StatsDict.summary"]}
{"id": "C48", "title": "Leakage is scaled per level exactly once", "statement": "Core/Tile/Node.get_stats: every non-I/O tile component's leakage is multiplied by its tile's active cycles, every core component's by its core's active cycles, NoC's by the queue-busy cycles, each exactly once, while area and activation counts are plain sums; I/O tiles 0 and 1 contribute only their router, with leakage unscaled.", "quantifier": "all hierarchies and cycle counts", "why_tests_cant": "unbounded hierarchies", "anchors": ["src/ramwich/core.py:Core.get_stats", "src/ramwich/tile.py:Tile.get_stats", "src/ramwich/node.py:Node.get_stats"]}
{"id": "C49", "title": "get_stats is a pure observation", "statement": "Calling get_stats any number of times changes no simulator state and returns the same result.", "quantifier": "all states", "why_tests_cant": "all states", "anchors": ["src/ramwich/stats.py:StatsDict", "src/ramwich/ramwich.py:RAMwich.get_stats"]}
{"id": "C50", "title": "reset restores the functional initial state but not all statistics", "statement": "After reset() of a halted simulator with RRAM crossbars all memories, registers, validity bits are zero and weights are kept, so the next run starts from the same functional state as a fresh simulator with those weights. The claim 'statistics start from zero too' is false: queue_busy_cycles survives; for SRAM-only configurations reset() raises AttributeError; a controller that was never halted stays bound to the old environment (witnesses).", "quantifier": "all simulator states", "why_tests_cant": "history dependence", "anchors": ["src/ramwich/ramwich.py:RAMwich.reset", "src/ramwich/mvmu.py:MVMU.reset", "src/ramwich/node.py:Node.reset", "src/ramwich/blocks/dram_controller.py:DRAMController.reset"]}
{"id": "C51", "title": "Operations reach the addressed unit in file order", "statement": "load_operations appends each valid operation to exactly the tile or core its node/tile/core fields address (Python negative indices count from the end), preserving file order per unit, skips malformed entries, and stops with IndexError at the first out-of-range address.", "quantifier": "every operation list and architecture", "why_tests_cant": "unbounded lists", "anchors": ["src/ramwich/ramwich.py:RAMwich.load_operations"]}
{"id": "C52", "title": "Weights reach the addressed MVMU", "statement": "load_weights loads a key node{a}_tile{b}_core{c}_mvmu{d} into exactly that MVMU and changes nothing for keys of another form, ids out of range or wrong shapes; the key grammar round-trips all ids of at most 4300 digits; a longer id raises ValueError outside the try block.", "quantifier": "every key set", "why_tests_cant": "all ids and strings", "anchors": ["src/ramwich/ramwich.py:RAMwich.load_weights"]}
{"id": "C53", "title": "Activation loading", "statement": "load_activation writes trunc(a*2^frac) to the first len(a) cells of tile 0's DRAM and marks exactly those valid in addition, leaving everything else unchanged; an activation longer than the DRAM changes nothing.", "quantifier": "all activations", "why_tests_cant": "all contents", "anchors": ["src/ramwich/ramwich.py:RAMwich.load_activation"]}
{"id": "C54", "title": "Configuration derivation", "statement": "For an accepted configuration stored_bit is the strictly increasing prefix sum of bits_per_cell from 0 to weight_width, the RRAM and SRAM output maps are increasing, disjoint and cover all crossbars, counts add up; a configuration whose bits do not add up is rejected; edram_size*activation_width <= capacity bits < (edram_size+1)*activation_width.", "quantifier": "every storage configuration", "why_tests_cant": "unbounded configurations", "anchors": ["src/ramwich/config.py:Config.validate_and_calculate"]}
{"id": "C55", "title": "Fixed-point format strings", "statement": "The format 'Q<i>.<f>' is parsed to exactly (i,f) for all i,f of at most 4300 digits; strings not starting with that form are rejected; trailing text after a valid prefix is accepted and ignored.", "quantifier": "all strings / all i,f", "why_tests_cant": "all strings", "anchors": ["src/ramwich/config.py:DataConfig.calculate_derived_values"]}
{"id": "C56", "title": "Fixed-point conversion", "statement": "float_to_fixed rounds to the nearest grid point (error at most half a grid step, ties to even); fixed_to_float followed by float_to_fixed is the identity.", "quantifier": "all values and fraction widths", "why_tests_cant": "continuous domain", "anchors": ["src/ramwich/utils/data_convert.py:float_to_fixed", "src/ramwich/utils/data_convert.py:fixed_to_float"]}
{"id": "C57", "title": "MVM activity counters", "statement": "Each execute_mvm adds, independently of data, iterations*size DAC conversions, iterations*columns_per_adc*(array size) ADC conversions and MUX selections, iterations*2*num_rram crossbar operations and iterations*columns_per_adc*SNA size shift-and-add operations.", "quantifier": "all configurations, data and call histories", "why_tests_cant": "all configurations and histories", "anchors": ["src/ramwich/mvmu.py:MVMU.execute_mvm", "src/ramwich/blocks/adc.py:ADCStats", "src/ramwich/blocks/dac.py:DACStats"]}
{"id": "C58", "title": "A core executes its instruction set as specified", "statement": "Starting from any loaded weights, a program of set/copy/vfu/mvm/hlt instructions leaves the registers in exactly the state given by an integer-level specification of the instruction set (addresses, wrap-around, saturation, MVM value), or raises exactly the exception that specification names.", "quantifier": "all simulable configurations, weight matrices, programs (any length), noise values and activation tables", "why_tests_cant": "programs are unbounded sequences of instructions over unbounded address and value combinations", "anchors": ["src/ramwich/visitor.py:CoreExecutionVisitor", "src/ramwich/core.py:Core"]}
{"id": "C59", "title": "Timing of the pipeline", "statement": "With the clock of simpy the pipeline does nothing that it cannot do without clock. An operation gets into the first buffer when the first stage takes the operation before it; a stage takes an operation when it has arrived and the stage is rid of the one before, calls the visitor at once, and is rid of the operation when its event has fired and (but for the last stage) the next stage has taken the one before. The order in which simpy processes events of one time has no influence on any of these times nor on the time at which completion is signalled. Before completion time passes only while some stage waits for the event of an operation.", "quantifier": "for all numbers of stages, programs, start times, latencies per stage and operation, and all orders of simultaneous events", "why_tests_cant": "a test sees one order of simultaneous events for one program; the claim is about all orders", "anchors": ["src/ramwich/pipeline.py:28-44", "src/ramwich/pipeline.py:86-100", "src/ramwich/core.py:127-152"]}
{"id": "C60", "title": "Cycles of a core", "statement": "Let the fetch stage need F and the decode stage D cycles. The active cycles of a core are at least F + D plus the times its operations up to the first hlt occupy the execution stage, and at most that if each of these times but the last is raised to at least F and D. If no operation before the hlt is executed faster than it is fetched and decoded, the active cycles are exactly F + D plus the sum of the execution times.", "quantifier": "for all programs, latencies, start times and orders of simultaneous events", "why_tests_cant": "tests check a few programs; the bounds hold for every program and latency", "anchors": ["src/ramwich/core.py:127-152", "src/ramwich/pipeline.py:28-44", "src/ramwich/visitor.py:73-92"]}
{"id": "C61", "title": "Pipelines change nothing but time", "statement": "A node whose cores have the three-stage pipeline, with one simpy clock, does only what the node can do whose cores execute their operations strictly one after the other: both have the same registers, DRAMs, routers and tile processes, and a core has those operations left that its execution stage has not started. So a core that has returned has executed its program in program order up to the first hlt, two finished runs with different latencies (of fetch, decode, execution, DRAM and routers) have the same results if no DRAM word gets two different values, and the pipelines add no deadlock: when nothing can happen any more and no core is in a timeout, the node without pipelines is stuck too.", "quantifier": "for all programs, numbers of tiles and cores, latencies, noise and orders of simultaneous events", "why_tests_cant": "a test sees one interleaving of pipelines, DRAM controllers and routers; hazards in a pipeline show up only under particular latencies", "anchors": ["src/ramwich/core.py:127-152", "src/ramwich/pipeline.py:28-44", "src/ramwich/visitor.py:145-257", "src/ramwich/tile.py:47-124"]}
{"id": "C62", "title": "Duration of the operations of a core and of its program", "statement": "In a node, a load of v words submits its request when the execution stage starts it, is answered at least edram_lat*v cycles later and finishes exactly dataMem_lat*v cycles after the answer; a store submits its request exactly dataMem_lat*v cycles after its start and finishes when it is answered, at least edram_lat*v cycles later; every other operation takes exactly the time of CoreExecutionTimingVisitor. The active cycles of a core are at least fetch + decode + the sum of these least times up to the first hlt, and without loads and stores at most that with every time but that of the hlt raised to the fetch and decode latencies.", "quantifier": "for all programs, positions in them, numbers of tiles and cores, latencies and orders of simultaneous events", "why_tests_cant": "waiting times depend on all other cores and tiles; tests cover few contention patterns", "anchors": ["src/ramwich/visitor.py:73-135", "src/ramwich/visitor.py:145-257", "src/ramwich/core.py:127-152", "src/ramwich/blocks/dram_controller.py:148-275"]}
{"id": "C63", "title": "The DRAM controller is a queue with one server that never idles", "statement": "In the order in which requests are answered, each is answered exactly edram_lat*num_batches cycles after the later of its own submission and the previous answer, even if it is a read that had to wait for data (it is released at the time of the answer to the write). So the total and the maximal waiting time in the statistics are functions of that order and of the submission times.", "quantifier": "for all initial DRAM contents, latencies and sequences of submissions, controller steps, clock ticks and stops", "why_tests_cant": "a lost wake-up or an idle cycle of the controller shows up only for particular arrival times of requests", "anchors": ["src/ramwich/blocks/dram_controller.py:199-286"]}
{"id": "C64", "title": "Response time of the DRAM controller", "statement": "A request that does not have to wait for data (a write, or a read of valid words) is answered at the latest when the DRAM has served all requests ahead of it and then the request itself, and exactly then if none of the requests ahead has to wait for data; while the controller runs, time does not pass that bound before the answer. A request to an idle controller takes exactly edram_lat*num_batches cycles.", "quantifier": "for all reachable states of a running controller, requests, and continuations", "why_tests_cant": "tests observe latencies of a few arrival patterns, not the bound over all queue contents and later arrivals", "anchors": ["src/ramwich/blocks/dram_controller.py:148-286"]}
{"id": "C65", "title": "Contention for the DRAM of a tile", "statement": "In a node, the requests of one process (a core or the tile process) to the DRAM are answered one after the other, each before the next one is submitted. A request that does not have to wait for data waits for at most one request of each other process of the tile, and so for at most (number of cores) times the longest service time. If only one process uses the DRAM, every request that is answered takes exactly its service time.", "quantifier": "for all programs, numbers of tiles and cores, latencies and orders of simultaneous events", "why_tests_cant": "the worst interleaving of the cores' requests is one of very many; starvation or an unfair queue shows up only there", "anchors": ["src/ramwich/blocks/dram_controller.py:148-286", "src/ramwich/visitor.py:145-257", "src/ramwich/tile.py:47-88"]}
{"id": "C66", "title": "Cycles of a core that loads and stores", "statement": "If no other core of its tile loads or stores and the tile neither sends nor receives, each operation of a core takes exactly its least time, and the cycles of the core are fetch + decode + the sum of these times up to the first hlt, if no operation is faster than fetch and decode. In general, if no request of the core has to wait for data and no Load, Store, Send or Recv of the tile has more than V words, each Load or Store takes at most cores*edram_lat*V cycles more than its least time, which bounds the cycles of the core.", "quantifier": "for all programs, numbers of tiles and cores, latencies and orders of simultaneous events", "why_tests_cant": "a worst-case bound over all interleavings of all cores and tiles cannot be observed in finitely many runs", "anchors": ["src/ramwich/core.py:127-152", "src/ramwich/pipeline.py:28-44", "src/ramwich/visitor.py:73-135", "src/ramwich/visitor.py:145-257", "src/ramwich/blocks/dram_controller.py:148-286"]}
{"id": "C67", "title": "Sizes and the lookup tables of the configuration", "statement": "Constructing the configuration objects fails exactly if the injection rate of the network is above 0.025 (ValueError) or, for a smaller rate that is not in the table, the user gave no latency (TypeError); no table lookup fails. For sizes in the tables everything that the user wrote into the derived fields is ignored; for a size that is not in its table it is kept; nothing else changes. Latencies: internode = hypertransport + intranode, network 29..115 cycles, memories 1, DRAM 50, crossbar = number of rows, converters as in the functional model. The table of crossbar powers has no effect.", "quantifier": "for all numbers in the configuration, given or not", "why_tests_cant": "every combination of sizes inside and outside of fourteen tables, and of fields given or not, would have to be tried", "anchors": ["src/ramwich/config.py:61-96", "src/ramwich/config.py:99-212", "src/ramwich/config.py:223-245", "src/ramwich/config.py:248-294", "src/ramwich/config.py:298-438", "src/ramwich/config.py:441-550"]}
{"id": "C68", "title": "When a configuration gives a report, and no negative energy or area", "statement": "After construction, the network of a node can be built exactly if it has a port and its leakage and area are known; get_stats of a simulator in any state then returns exactly if every node has a tile and for each part that the simulator has, the size is in the table or the user gave the numbers. If all sizes are in the tables, everything works. If moreover the scalars of the user and the counters are not negative, no entry of the report is negative.", "quantifier": "for all numbers in the configuration, all simulators, states and heaps", "why_tests_cant": "an unsupported size is only noticed at the end of a simulation, in the get_stats method of a part that a test may not have", "anchors": ["src/ramwich/config.py:60-607", "src/ramwich/blocks/noc.py:39-60", "src/ramwich/node.py:55-70", "src/ramwich/mvmu.py:220-250"]}
{"id": "C69", "title": "Larger hardware never costs less", "statement": "For two configurations that differ in sizes and resolutions only (DAC, ADC, crossbar, ports, injection rate, DRAM, instruction and data memories), all in the tables and none larger in the first, the reports on the same simulator state have the same counts, and no energy (dynamic or leakage) or area is larger in the first.", "quantifier": "for all pairs of supported configurations, all simulators and states", "why_tests_cant": "one transposed digit in one of forty table entries makes a larger part cheaper, in one pair of sizes only", "anchors": ["src/ramwich/config.py:60-607"]}
{"id": "C70", "title": "Exact times of packets", "statement": "With the clock of simpy: a send thread takes a packet at the maximum of the time it was put into the queue and the time the thread was through with the packet before; it arrives noc_intra_lat cycles later; it is put into the buffer of the target at the maximum of its arrival and the read of the packet before from the same tile; it is read at the maximum of that and of the call of read_packet; the thread is through with it when the buffer has accepted it; add_send_packet returns dataMem_lat cycles after it was called. No event is earlier, and when time passes none is overdue. Hence a router delivers at most one packet per noc_intra_lat cycles, and the m-th packet of a batch at q + (m+1)*noc_intra_lat. Runs with the clock are runs of the routers without it.", "quantifier": "for all configurations of one node, all runs (calls by the tiles at any time, any order of events of one moment)", "why_tests_cant": "a lost or early wake-up shows only when a put, a get and an arrival of one moment happen in a certain order", "anchors": ["src/ramwich/blocks/router.py:136-207"]}
{"id": "C71", "title": "What queue_busy_cycles counts", "statement": "The monitor of the network looks once per cycle and queue_busy_cycles is the number of looks that have seen a packet in the send queue of a running router. A cycle is counted only if a packet is in a queue in this cycle, and is counted if a packet is there from an earlier cycle to a later one. Packets under way are not counted: if no packet waits for its router, the count is at most the number of packets, whatever the latency is.", "quantifier": "for all configurations of one node and all runs", "why_tests_cant": "the count depends on the order of the monitor and the routers within each cycle", "anchors": ["src/ramwich/blocks/noc.py:62-97"]}
{"id": "C72", "title": "A router stops in the cycle of its last delivery", "statement": "stop_after_all_packets_sent, which polls the queue once per cycle, stops the router exactly at the maximum of the time of the call and the time of the last delivery if packets have a latency of at least one cycle, and at most one cycle later otherwise; it is stopped whenever time passes with all packets delivered.", "quantifier": "for all configurations of one node, all runs and tiles", "why_tests_cant": "depends on whether the poll comes before or after the send thread in the cycle in which the queue becomes empty", "anchors": ["src/ramwich/blocks/router.py:97-134"]}
{"id": "C73", "title": "One clock for a whole node", "statement": "With all processes of a node on one simpy clock (cores with pipelines, DRAM controllers, routers, tile processes; time passes only when nothing can happen now), every run is a run of the node whose cores and controllers have a clock, and a run of the routers with a clock showing the same time. Hence the data results C41-C46, the core and DRAM times C61-C66 and the packet times C70-C72 hold together in one execution.", "quantifier": "for all configurations of one node, programs, initial memories, orders of simultaneous events", "why_tests_cant": "that separately verified parts agree when they share a clock depends on every interleaving of simultaneous events", "anchors": ["src/ramwich/tile.py:47-122", "src/ramwich/node.py"]}
{"id": "C74", "title": "When tile operations start and end", "statement": "Operations of a tile process run one at a time in program order; the first starts at 0 and each other when the previous one ends. A Send submits its read when it starts, puts one row into the send queue every dataMem_lat cycles from the answer on and ends dataMem_lat cycles after the last. A Recv calls read_packet in turn, gets exactly the packets of its source that follow those read by earlier operations, submits the write in the cycle of the last packet and ends when it is answered; on a packet of wrong length it ends in that cycle without writing. The first Halt calls the router's stop at the maximum of its start and the ends of the cores and ends when the router stops, which is the maximum of that and the last delivery; every further Halt takes no time.", "quantifier": "for all configurations, programs, runs that have not crashed, tiles and operations", "why_tests_cant": "durations depend on the DRAM contention, on the other tiles and on the order of events within a cycle", "anchors": ["src/ramwich/tile.py:47-122"]}
{"id": "C75", "title": "What active_cycles of a tile is", "statement": "active_cycles is set exactly when all operations of the tile have ended; it is the time at which the last one ended and the sum of the durations of all operations. If the program has a Halt it is not smaller than the times at which the cores of the tile end and its last packet is delivered. Without a Halt it may be 0 although the cores work, so the leakage energy, which is multiplied with it, misses that time.", "quantifier": "for all configurations, programs and runs that have not crashed", "why_tests_cant": "needs every interleaving of tile process, cores and routers", "anchors": ["src/ramwich/tile.py:103-122", "src/ramwich/tile.py:135-170"]}
{"id": "C76", "title": "No word arrives early", "statement": "The n-th packet that a tile reads from another one is read no earlier than noc_intra_lat cycles after the other tile has put it into its send queue.", "quantifier": "for all configurations, programs, runs, pairs of tiles and packets", "why_tests_cant": "an early delivery would show only for certain combinations of blocked buffers and waiting readers", "anchors": ["src/ramwich/blocks/router.py:136-207"]}
{"id": "C77", "title": "Float64 rounding never changes a product", "statement": "A unit whose conductances start at 0, without noise and with at most 32768 rows, answers every history of calls in float64 arithmetic exactly as with real numbers, for every order in which numpy may add the products of a row (with or without fused multiply-add; no product is rounded more often than there are rows plus one); registers, digital cells and counters agree as well. So the integer matrix-vector product of C04 is also what the float64 code computes. With a positive smallest conductance this is false.", "quantifier": "for all configurations, weights that are float64 numbers, inputs, histories of calls and orders of summation", "why_tests_cant": "the rounding depends on the numpy build and the vector instructions of the machine; tests see one order of summation", "anchors": ["src/ramwich/mvmu.py:73-201", "src/ramwich/blocks/rram_xbar.py:65-100", "src/ramwich/blocks/adc.py:60-117", "src/ramwich/blocks/dac.py:51-70", "src/ramwich/utils/data_convert.py:1-12"]}
{"id": "C78", "title": "A program that finishes once always finishes", "statement": "If the node has once executed its programs to the end and no DRAM word was given two different values, then every other run of the same programs that raises nothing and in which nothing happens any more has executed them to the end too, whatever the latencies and the order of the processes, unless a read is left waiting although its words are valid (the bug of C32). On programs in which at most one process of every tile reads the DRAM this cannot happen. Without that condition the claim is false: the order of a store and two loads decides whether a program finishes.", "quantifier": "for all pairs of configurations that differ in latencies, all programs, all pairs of runs", "why_tests_cant": "deadlocks that depend on timing show only under particular latencies and tie-breaks; a test runs one schedule", "anchors": ["src/ramwich/tile.py:47-124", "src/ramwich/blocks/dram_controller.py:200-286", "src/ramwich/blocks/router.py:100-207", "src/ramwich/visitor.py:138-257"]}
{"id": "C79", "title": "Every program comes to an end", "statement": "Apart from the passing of time a run of a node has at most as many steps as a formula in the sizes of the programs says (9 for a load or store, 2 for another core operation, 9 plus 8 per row for a Send, 9 plus 3 per row for a Recv, 6 for a Halt), one more if the last step raises. Hence every run, continued as long as anything can happen, ends in a state in which nothing happens any more.", "quantifier": "for all configurations, programs, orders of the processes and latencies", "why_tests_cant": "a livelock (requests that are put back again and again, processes that wait for each other in a loop) may need a particular interleaving", "anchors": ["src/ramwich/tile.py:47-124", "src/ramwich/blocks/dram_controller.py:200-286", "src/ramwich/blocks/router.py:100-207", "src/ramwich/visitor.py:138-257"]}
{"id": "C80", "title": "Exceptions do not depend on time", "statement": "If one run of a node executes all programs to their end and comes to rest, and no DRAM word is given two different values in it, then no run of the same programs raises an exception, for every order of the processes and all latencies that are configured and not negative. If moreover at most one process of every tile reads the DRAM, every run comes to an end with the same registers, DRAM contents and operations: one complete run is enough to know all others. Both conditions are needed: with a race one order of two cores finishes and the other raises an IndexError, and a row to a tile that does not exist may raise a KeyError after the program has finished.", "quantifier": "for all configurations with the same sizes, all programs, orders of the processes and latencies", "why_tests_cant": "a simulation is one order of the processes with one set of latencies; that no other order raises cannot be seen from it", "anchors": ["src/ramwich/tile.py:47-124", "src/ramwich/core.py:100-176", "src/ramwich/blocks/dram_controller.py:60-286", "src/ramwich/blocks/router.py:60-207", "src/ramwich/visitor.py:28-257"]}
{"id": "C81", "title": "A simulation ends or hangs, and one simulation decides about all", "statement": "In the node with the clock of simpy: (a) a simulation has at most as many actions as a formula in the sizes of the programs says, apart from the passing of time and the two kinds of processes that poll the queues, and in bounded time only boundedly many actions of any kind; (b) simpy never runs out of events, so that in a deadlock the simulation goes on for ever: any time is reached and the waiting tile process never returns; (c) every simulation can be continued until nothing is ever done again, and then the node without clock is at rest too; (d) if a program was once simulated to its end, no word was given two different values and at most one process of every tile reads its DRAM, then with all other latencies that are configured and not negative no process raises, and when nothing is done any more all programs have ended with the same registers, DRAM contents and operations and all tile processes have returned.", "quantifier": "for all configurations, latencies, programs, and orders of events at one time", "why_tests_cant": "a test is one set of latencies and one order of simultaneous events; that a simulation never ends cannot be observed at all", "anchors": ["src/ramwich/ramwich.py:181-199", "src/ramwich/node.py:31-45", "src/ramwich/tile.py:47-124", "src/ramwich/blocks/noc.py:76-95", "src/ramwich/pipeline.py:20-100", "src/ramwich/blocks/router.py:100-207", "src/ramwich/blocks/dram_controller.py:200-286"]}
{"id": "C82", "title": "A simulation is over, or hangs for ever, after the sum of the times of its operations", "statement": "Let T be the sum, over all operations of all programs of the cores (up to the first hlt) and tiles, of the configured times of the operations (fetch, decode, execution, accesses of the DRAM and registers, packet latencies, one cycle per halt of a tile). Whatever the order of events: once the clock has passed T nothing but polling is ever done again; every action happens up to T; active_cycles of a tile is at most T; a tile process that has not returned after T never returns. If the program was once simulated to its end with some latencies (single assignment, one reader per DRAM), then with all latencies and all schedules it is finished, with all tile processes returned, once the clock has passed T. T is attained by a program.", "quantifier": "for all configurations, latencies, programs, and orders of events at one time", "why_tests_cant": "an upper bound of the running time over all schedules and all latencies is not a statement about any finite set of runs", "anchors": ["src/ramwich/tile.py:100-124", "src/ramwich/tile.py:47-98", "src/ramwich/core.py:60-160", "src/ramwich/pipeline.py:20-100", "src/ramwich/blocks/router.py:100-207", "src/ramwich/blocks/dram_controller.py:200-286", "src/ramwich/blocks/noc.py:76-95"]}
{"id": "C83", "title": "The counters and the energy report of a node do not depend on the schedule", "statement": "At the end of a run, whatever the schedule, the DRAM controller of a tile has answered exactly one request per executed load, store, Send and complete Recv, and the counters of DRAM and controller (operations, cells, requests, operating time) are the sums over these requests. If all tiles halt, each router has created, sent and received exactly one packet per row of the Sends from and to its tile, and counts as read the rows taken by Recvs. Hence two finished runs of a single-assignment program, with any latencies and any order of events, have the same DRAM contents and counters, request counters, core and MVMU counters and router counters; get_stats gives the same report if the active cycles agree. With other cycles the areas are the same, the counts and dynamic energies of all components but the two control units are the same (the routers differ by the intra-node energy of the difference in busy cycles), and a run that is slower in every respect never leaks less.", "quantifier": "for all configurations, programs, schedules, latencies, power tables", "why_tests_cant": "compares the counters of all schedules and latencies; a lost or doubled count shows only in some interleavings", "anchors": ["src/ramwich/blocks/dram_controller.py:50-90", "src/ramwich/blocks/memory.py:14-55", "src/ramwich/blocks/router.py:14-60", "src/ramwich/tile.py:47-172", "src/ramwich/node.py:52-70", "src/ramwich/stats.py:1-53"]}
{"id": "C84", "title": "The counters and the energy report of a node do not depend on the data", "statement": "Two finished runs of the same tile and core programs have the same counters of the DRAMs, DRAM controllers, routers (if the tiles halt), register files, caches, vector units and MVMU parts (operations, conversions, samples, selections), whatever the weights, the contents of DRAMs and registers, the noise, the activation functions, the latencies and the order of events are; the histories of the tiles agree up to the contents of the rows. Hence get_stats gives the same report for the same active cycles. No data-dependent count enters a report; only the overflow count and the sum of errors of the ADCs depend on the data and no report shows them.", "quantifier": "for all configurations, programs, weights, DRAM contents, noise, schedules, latencies, power tables", "why_tests_cant": "compares the runs on all pairs of inputs, weights and noise", "anchors": ["src/ramwich/mvmu.py:128-201", "src/ramwich/blocks/vfu.py:33-60", "src/ramwich/blocks/memory.py:14-55", "src/ramwich/visitor.py:139-257", "src/ramwich/tile.py:135-172", "src/ramwich/node.py:52-70"]}
{"id": "C85", "title": "Programs that pass a check of their texts run to their ends, whatever the data and the timing", "statement": "A check reads only the programs of a node and which DRAM words are valid at the start: every register operand lies in a window of the address map, the DRAM address of every load and store comes from a register filled by set, no div; and moving the processes in some order, one operation at a time, every read finds its words valid, every write finds its words invalid and in the DRAM, every Receive finds its rows at the head of the queue of the source, every tile halts last. If a program passes the check, then for all DRAM contents, weights, earlier use of the cores, noise, activation functions, schedules and all latencies that are there and not negative: no process raises; every run can be continued until nothing happens any more, and then all programs are executed to their ends or a read waits although its words are valid (the defect of C32); all complete runs end with the same registers, DRAM contents and operations; in the model with one clock this is reached once the clock has passed the sum of the times of the operations, and if at most one process of every tile reads its DRAM, the simulation is then over.", "quantifier": "for all configurations, programs, DRAM contents, weights, noise, latencies, schedules", "why_tests_cant": "one evaluation of a data-free check decides about the runs on all inputs, weights, noise, latencies and schedules", "anchors": ["src/ramwich/core.py:53-137", "src/ramwich/visitor.py:138-257", "src/ramwich/tile.py:47-124", "src/ramwich/blocks/dram_controller.py:148-286", "src/ramwich/blocks/router.py:62-207"]}
{"id": "C86", "title": "From the files to the end of the simulation; the example of the repository", "statement": "A simulator is built from a configuration that it can run, the operations are loaded from a file whose entries are objects with the fields of operations for existing units (in any order, with extra fields, optional fields left out), weights from any file, and an activation that fits into the DRAM. If the programs in the file pass the check of C85 for an activation of that length, then the loaders do not raise, every unit has exactly its operations in the order of the file, exactly the words of the activation are valid, and every run of a node behaves as C85 says: with every schedule no process raises, the run can be continued to its end, which is the end of all programs or a skipped read (C32), and all complete runs end with the same registers and DRAMs, also with other latencies; with the latencies of the configuration and one clock the end is reached once the clock has passed the sum of the times of the operations in the file. The files of examples/mlp_l4_mnist pass the check: for all weight files, all images of 784 values, all noise and all activation functions the simulation of the example never raises and is over, or has come to a skipped read, at time 256505; and there is one result that all its complete runs have.", "quantifier": "for all configurations, operation files, weight files, activations, noise, schedules; for the example: all weights, images, noise, schedules", "why_tests_cant": "the test of the example runs one image with one schedule; the theorem speaks about all images, weights, noise and orders of events", "anchors": ["src/ramwich/ramwich.py:21-205", "src/ramwich/ops.py:1-140", "src/ramwich/visitor.py:73-257", "src/ramwich/tile.py:47-124", "examples/mlp_l4_mnist/ops.json:1", "examples/mlp_l4_mnist/config.yaml:1-67"]}
{"id": "C87", "title": "Complete runs solve the equations of their programs", "statement": "The programs of a node state equations between the words of its DRAMs: a core that executes its program up to hlt in order, on the abstract core of C58 (integers, register windows, matrix products of the weights loaded), with every load finding the words of the DRAM at the address in its register, stores what is in the DRAM; the rows at the places where a tile receives from another are the rows at the places from which that one sends, in order; words valid at the beginning keep their values. When a run with any schedule and any latencies has executed all programs to their ends and no word has been given two values, the final contents of the DRAMs solve these equations and the registers of every core are those of the abstract core; this holds for every complete run of a program accepted by the check of C85. So what a parallel run computes is described without processes, requests, packets and time.", "quantifier": "for all configurations, programs with positive lengths and matching transfers, weights, noise, initial DRAMs, schedules, latencies", "why_tests_cant": "a test compares the result of one schedule for one input with an expected output; the theorem reduces all complete runs of all programs to sequential equations", "anchors": ["src/ramwich/tile.py:60-124", "src/ramwich/core.py:90-195", "src/ramwich/visitor.py:73-257", "src/ramwich/blocks/dram_controller.py:70-295", "src/ramwich/blocks/router.py:60-215"]}
{"id": "C88", "title": "From the files to the equations", "statement": "A simulator is made from a configuration, an operations file that passes the check of C85, a weights file and an activation. At the end of every complete run of a node, whatever the schedule and the latencies, the words of its DRAMs solve the equations of C87 for exactly what is in the files: the programs are the operations of the file for each unit in their order; the weights of each MVMU are those of the last array of the right shape whose key names it (zeros if there is none; wrongly shaped arrays and keys of other forms count for nothing); the first words of tile 0 of node 0 are the activation values times 2^activation_frac_bits, rounded towards zero. The registers of all cores are those of the solution.", "quantifier": "for all configurations, operations files that pass the check with positive lengths and matching transfers, weights files, activations in range, noise, activation functions, schedules, latencies", "why_tests_cant": "a test loads a few files and runs one schedule; the theorem covers all files and all schedules, including files with duplicate, unknown or ill-shaped weights", "anchors": ["src/ramwich/ramwich.py:60-185", "src/ramwich/mvmu.py:73-97", "src/ramwich/tile.py:60-124", "src/ramwich/core.py:90-195", "src/ramwich/visitor.py:73-257"]}
{"id": "C89", "title": "The MNIST example computes its perceptron", "statement": "The operations file of examples/mlp_l4_mnist (758 operations on 5 tiles, 17 cores with programs, 98 crossbar matrices) computes a multilayer perceptron: for every image of 784 values, every weights file, all noise and all activation functions, every complete run with any schedule and any latencies ends with words 0 to 9 of the DRAM of tile 1 equal to the outputs of a perceptron with layers of 1024, 512, 200 and 10 neurons, ReLU after the first three, whose blocks of 128 are products with the matrices of the units in order and saturating sums in a fixed order. Complete runs exist. In simulated time the outputs are there after 256504 cycles at the latest, unless a read is skipped (C32).", "quantifier": "for all images, weights files, noise, activation functions, schedules, latencies, ways of writing the operations file", "why_tests_cant": "the example program runs on one image and prints its output; that a compiled program of hundreds of operations on parallel cores computes the intended network for every image, weight, noise and interleaving is beyond tests", "anchors": ["examples/mlp_l4_mnist/ops.json", "examples/mlp_l4_mnist/config.yaml", "src/ramwich/ramwich.py:60-185", "src/ramwich/core.py:90-195", "src/ramwich/tile.py:60-124"]}
{"id": "C90", "title": "Runs of a session are independent", "statement": "Runs made one after the other with one simulator, with a reset before every run but the first (process_batch of tests/test_mlp_on_mnist_multi.py), do not influence each other: no reset fails, and every run of such a session, however many came before it and with whatever activations, latencies, noise and schedules, is a run of a new simulator with the same files and activation. Conversely all runs of new simulators can be made in one session. For the MNIST example: every nonempty batch of images can be processed, and after the run for an image words 0 to 9 of the DRAM of tile 1 hold the outputs of the perceptron for that image.", "quantifier": "for all sessions of any length whose runs come to their ends, all operations and weights files, activations, noise, latencies, schedules; configurations with RRAM crossbars only", "why_tests_cant": "a leak of state from one run to a later one depends on the history; the batch script compares only argmax with labels and never with a new simulator", "anchors": ["tests/test_mlp_on_mnist_multi.py:29-48", "src/ramwich/ramwich.py:187-212", "src/ramwich/node.py:47-50", "src/ramwich/tile.py:126-140"]}
{"id": "C91", "title": "Accuracy of the MNIST example against the network in rational numbers", "statement": "For every weight file and noise for which each of the 98 crossbar units is exact (weights fit the cells, no converter can saturate, the conductance errors of a row stay below half a converter step), and for every image with pixels in [0,256), every complete run of the shipped MNIST example, with any schedule and any latencies, ends with outputs that differ from those of the same perceptron in rational arithmetic (only the saturation to 16 bits kept) by at most an explicit bound: per layer, the row norm of the weights times the error of the inputs, plus the rounding of the weights (1/512) times the sum of the inputs, plus 1/256 per product. Against the network with the rounded weights the middle term vanishes. Consequently, if one exact output exceeds the others by more than twice the bound, the simulated class is the exact class.", "quantifier": "all files writing the MNIST program, all weights, images, noise values, activation functions, schedules and latencies, all outputs r < 10", "why_tests_cant": "A test compares a few images with a tolerance chosen by hand; it gives no bound for other weights, noise, schedules or images, and does not say when the predicted class is reliable.", "anchors": ["src/ramwich/mvmu.py:73-180", "src/ramwich/blocks/rram_xbar.py:52-100", "src/ramwich/blocks/vfu.py:95-160", "tests/test_mlp_on_mnist_multi.py:42-47", "examples/mlp_l4_mnist/ops.json"]}
{"id": "C92", "title": "A check that finds hangs; the example of the repository can hang", "statement": "A second check of the program texts lets processes ask for DRAM words before they are there: a list of moves (who does his next operation, who asks and waits, who goes on) is replayed, and whenever words are written the list of waiting reads is gone through once as _update_ready_requests does, skipping the read after each one that is served. If the moves lead to a state in which nobody can move and a read waits although its words are there, then the node really has a run with this end: nothing raises, nothing can happen any more, the program is not finished. A program that passes this check and that of C85 finishes or hangs depending on the order of events alone. Both hold of the MNIST example of the repository, for every image, every file of weights and all noise.", "quantifier": "for all configurations the simulator can run, all programs and moves that pass the check, all data in the DRAMs, weights, noise and activation functions; for the MNIST example all images of 784 values, all weight files, all ways to write its operations to a file", "why_tests_cant": "A test run has one order of events, fixed by the latencies of one configuration; with the shipped latencies the example ends. That another order hangs, whatever the image and the weights are, is a statement about all data and about an order that no run of the test suite has.", "anchors": ["src/ramwich/blocks/dram_controller.py:277-286", "src/ramwich/tile.py:47-124", "src/ramwich/core.py:127-157", "examples/mlp_l4_mnist/ops.json"]}
{"id": "C93", "title": "The equations of the programs hold in every state of every run", "statement": "If contents of the DRAMs and registers solve the equations of the programs of a node (C87: cores store what they compute from the words they load, tiles receive the rows that others send, given words are there), then in every state of every run the valid words of the DRAMs are those of the solution, and every core that has come to the end of its program has the registers of the solution. Hence two solutions agree on every word that is ever valid, and in the MNIST example an output word that is valid at any time, even in a run that hangs, is the output of the perceptron.", "quantifier": "all nodes, programs, weights, inputs, noise and activation functions, all solutions of the equations, all runs with any schedule and latencies, complete or not, and all their states; also all states of the simulation with clock and pipelines for the MNIST example", "why_tests_cant": "A test looks at the result of a run that has ended; that no interleaving of cores, DRAM controllers and routers ever leaves a wrong valid word on the way is a statement about all intermediate states of unboundedly many runs, including those that never end.", "anchors": ["src/ramwich/core.py:127-157", "src/ramwich/tile.py:47-124", "src/ramwich/blocks/dram_controller.py:277-286"]}
{"id": "C94", "title": "Programs that always come to their ends, with one result", "statement": "If the programs of a node pass the check of C85 and no write of a tile (a Store of a core or a Recv of the tile) overlaps with words that two different processes of this tile read, then no read of the tile is ever skipped by the DRAM controller: every run can be continued to its end, whenever nothing happens any more all programs have been executed to their ends, every simulation is over when the clock has passed the sum of the times of all operations, and then the DRAMs and registers hold the solution of the equations of the programs (C87). The condition is a test on the texts of the programs; the condition of C85 (one reading process per tile) is a special case, and no program that C92 shows to hang meets it. The same is proved for a node loaded from the files.", "quantifier": "for all configurations the simulator can run, all accepted programs whose writes are apart, all data, weights, noise and activation functions, all latencies, all schedules, all times", "why_tests_cant": "A skipped read shows only in particular orders of events; a test that ends says nothing about the other orders. The theorem covers all orders, all latencies and all data from one look at the program text.", "anchors": ["src/ramwich/blocks/dram_controller.py:277-286", "src/ramwich/core.py:127-157", "src/ramwich/tile.py:47-124"]}
{"id": "C95", "title": "The report of a simulation can be computed from the programs", "statement": "At the end of every complete run of a node, whatever the weights, the inputs, the noise, the latencies and the order of the processes, every counter is a sum over the texts of the programs: the accesses to input and output registers and to the core memories, the operations of the vector units, the conversions of DACs and ADCs, the samples, selections, shift-and-adds and products of the crossbars, the requests, rows and words of the DRAMs, and the packets of the routers. get_stats of the node after the run returns the report of these sums (and the times of the run). For the MNIST example of the repository this gives 12544 crossbar products, 1605632 ADC conversions, 983 DRAM rows read, 433 written and 169 packets in every complete simulation.", "quantifier": "all configurations that build, all nodes of any numbers of tiles and cores, all programs whose Sends and Recvs fit, all weights, DRAM contents, noise, latencies and schedules", "why_tests_cant": "A test counts for one program, one data set and one schedule of the processes; it cannot show that no counter depends on data, on time or on an interleaving, nor that the closed sum is right for programs of any length.", "anchors": ["src/ramwich/core.py:127-157", "src/ramwich/mvmu.py", "src/ramwich/blocks/vfu.py", "src/ramwich/blocks/memory.py", "src/ramwich/blocks/router.py", "src/ramwich/node.py"]}
{"id": "C96", "title": "A simulation of several nodes is the product of the simulations of its nodes", "statement": "RAMwich.run puts the processes of all nodes into one simpy environment. In every run of it, every node is at every moment in a state it can reach when it is simulated alone up to the same time (only the monitor of its network stops when the node has returned), and conversely simulations of single nodes up to the same time can be put together as long as one node had not returned before. A process raises in the whole only if one raises in its node simulated alone, at the same time; and if one raises in a node alone, it can raise in the whole if the other nodes can reach that time and one of the nodes had not returned before. A node returns at the greatest active_cycles of its tiles, and its queue_busy_cycles is what it was then; the simulation ends at the greatest active_cycles of all tiles of all nodes. Until then there is always another event, and in bounded time only a bounded number of events, so that env.run can neither stop without having finished nor process events forever without time passing. If the nodes, each simulated alone, never raise and return in time, then every simulation of all of them returns, by the greatest of the sums of the times of their operations; if it is not over by then it will never be.", "quantifier": "all numbers of nodes, all configurations, programs, contents, latencies and noise, all orders of the events of all nodes", "why_tests_cant": "A test runs one interleaving of the events of a few nodes. That nodes cannot influence each other through the shared environment, that time always advances, and that there is no order of events in which the simulation does not end are statements about all interleavings and all numbers of nodes.", "anchors": ["src/ramwich/ramwich.py:180-206", "src/ramwich/node.py:31-45", "src/ramwich/blocks/noc.py:61-95", "src/ramwich/tile.py:103-124"]}
{"id": "C97", "title": "A call of RAMwich.run, from the files to the printed report", "statement": "For files that the static check of C85 accepts on every node, a call of RAMwich.run - on a new simulator or after any number of calls and resets - can start, never raises, and always has a next event until it is over. If on every node no write has words for two processes of a tile, it returns: by the greatest sum of the times of the operations of a node, after boundedly many events, from every state it comes to. When a call returns, the objects are those of a new simulator with the same files as the processes have left them, with active_cycles the times at which the tiles and cores halted (core <= tile <= env.now, and the latter attained), and queue_busy_cycles the sum over all calls; the words in the DRAMs and registers of all nodes solve the equations of the operations, weights and activation in the files; the report printed has for every counter the sum over the program texts (C95); and the next reset and call are possible. For the MNIST example no call raises, one that returns does so by cycle 256504, and then the ten words of tile 1 are the perceptron of the pixels.", "quantifier": "all configurations, files, activations, weights, noise, numbers of nodes, histories of earlier calls, and all orders of events", "why_tests_cant": "The tests run one file with one order of events. The statement joins loaders, processes, clock, counters and report for every accepted file, every history of earlier calls and every interleaving of the events of all nodes.", "anchors": ["src/ramwich/ramwich.py:150-206", "src/ramwich/node.py:31-62", "src/ramwich/tile.py:107-126", "src/ramwich/core.py:127-165"]}
{"id": "C98", "title": "What a simulation takes at least", "statement": "In every clocked execution of a node: a core that is done has taken at least one fetch, one decode and the times of all its operations up to the first hlt; a tile that has returned has active_cycles of at least what its operations take one after the other and, from each Send on, of at least the network latency for each packet still to be sent; and the time at which everything is done is at least edram_lat times the rows that the programs of any tile read and write in its DRAM. From the files: when RAMwich.run returns, on a new simulator or after any number of calls and resets, the time that it reports is at least the maximum of these sums over the program texts, and so are active_cycles of each tile and core. For the MNIST example a call that returns reports a time between 36850 and 256504.", "quantifier": "all configurations, files, activations, weights, noise, histories of earlier calls, and all orders of events", "why_tests_cant": "A test sees the time of one order of events. The bound is about every order: it says that no interleaving, however lucky, lets a unit do two things at a time.", "anchors": ["src/ramwich/core.py:127-165", "src/ramwich/tile.py:107-126", "src/ramwich/blocks/dram_controller.py:112-295", "src/ramwich/ramwich.py:185-206"]}
{"id": "C99", "title": "The report from the program texts, and energies between two bounds", "statement": "The report of a simulator never gets cheaper when its times get longer: of two reports on one simulator, none of whose times is larger in the first, the second has no smaller count and no smaller energy under any name and in total, and the same areas. From the files: the report that RAMwich.run prints is, under every name and in total, a sum that only depends on the texts of the programs and on the times; so it lies between the sums for the least times (C98) and for the most (C82), whatever was computed and in whatever order. For the MNIST example, first call: if run returns, there is a report, its dynamic energy is between 5281836 and 10936818 and its leakage energy between 18667403 and 493360701.", "quantifier": "all configurations with sizes in the tables and no negative numbers, all files, activations, weights, noise, histories of earlier calls, and all orders of events", "why_tests_cant": "A test compares one report with a recorded one. That no order of events, no input and no noise gives an energy outside the bounds, and that the energy never falls when a unit is active longer, are statements about all reports.", "anchors": ["src/ramwich/ramwich.py:181-220", "src/ramwich/node.py:52-66", "src/ramwich/tile.py:135-172", "src/ramwich/core.py:166-192"]}
{"id": "C100", "title": "A check with the clock but without data; run can return with the shipped latencies", "statement": "A machine with the clock, the pipelines, the requests to the DRAMs and the packets of a node, but without a word of data, decides whether a schedule is possible: if it says that with a schedule the tile processes return at certain times, then the node has, with the latencies of the configuration, a run in simulated time that raises nothing and in which they return at exactly these times, whatever the data, weights, noise and activation functions are. From the files: if the programs of every node have such a schedule up to time T and a tile returns at T, RAMwich.run can return at time T with these active_cycles. For the MNIST example with the shipped latencies: with every file of weights and every activation, in every call, run can return after 86797 cycles, its tiles active for 4057, 86797, 57212, 84004 and 86747 cycles.", "quantifier": "all configurations with sizes in the tables, all programs, schedules, data, weights, noise, activation functions, and all histories of earlier calls", "why_tests_cant": "A test runs the simulator with one input. That a schedule is possible for all inputs at once, and that times of a run do not depend on the data, is a statement about all of them.", "anchors": ["src/ramwich/ramwich.py:181-205", "src/ramwich/tile.py:103-124", "src/ramwich/core.py:127-156", "src/ramwich/pipeline.py:27-44"]}
{"id": "C101", "title": "run without an activation: nothing waits on the first tile", "statement": "run() is run(np.zeros(edram_size)) and marks every word of the first tile valid. On a tile whose words are all valid at the start no read ever waits and no word becomes invalid, in all runs; so in run(), with any operations and weights, no read of the first tile of the first node waits for the word that a store or receive has yet to write. The validity bits are the only thing that orders a load after the store of its words: a program that always gives one result when the words it stores are not valid at the start gives different registers in two orders of events when they are valid zeros. The MNIST example writes nothing to its first tile: there run() never raises, returns by cycle 256504 if it returns, and then the output is the perceptron of an image of zeros.", "quantifier": "all configurations, operations, weights, runs and schedules; for the example all weights, noise, activation functions and histories of earlier calls", "why_tests_cant": "That a read never waits is a statement about every state of every run; a test sees one order of events, in which the race may come out right.", "anchors": ["src/ramwich/ramwich.py:181-190", "src/ramwich/blocks/dram_controller.py:199-215"]}
{"id": "C102", "title": "A core without hlt keeps its tile from ever getting past Halt", "statement": "Core.run waits for the completion of its pipeline, which only a hlt triggers, and Halt waits for all cores of its tile, used or not. So a core without a hlt in its program never ends; its tile, if its program has a Halt, never executes the Halt and never returns from Tile.run; Node.run and env.run never return, and unless a process raises the simulation goes on for ever (the monitor of the network keeps producing timeouts): for every time there is a continuation up to that time. In particular run never returns for an operation file with a Halt for a tile of which one core gets no hlt, and tests/test_tile_features.py, whose tiles 0 and 1 have a Halt and two cores without operations, never reaches its assertion, for any weights, activation, latencies and order of events.", "quantifier": "all configurations, programs, weights, activations, latencies, noise and schedules", "why_tests_cant": "That a simulation never returns cannot be observed by running it: a test that hangs is indistinguishable from a slow one.", "anchors": ["src/ramwich/core.py:127-156", "src/ramwich/pipeline.py:39-44", "src/ramwich/tile.py:86-123", "src/ramwich/node.py:31-45", "src/ramwich/blocks/noc.py:79-96", "tests/test_tile_features.py:14-111"]}
{"id": "C103", "title": "The program of test_tile_features with a hlt for every core", "statement": "With a hlt for the unused cores the operations of tests/test_tile_features.py always run to an end: no process raises, the clock never passes cycle 10000, and from every state the simulation goes on to the end. Words 0-127 of tile 1 are then rectified(product W1 (rectified(product W0 activation))), with the fixed-point products of the crossbars and the clipping of the vector unit, so none of them is greater than 255. The assertion of the test therefore fails for all weights and activations for which an element of expected_output is greater than 255, for instance if all weights drawn are 2 and all activations 1 (expected 65536).", "quantifier": "all weights, activations of 128 values, noise, activation functions, histories of earlier calls and schedules", "why_tests_cant": "The test draws one set of weights and sees one schedule; it hangs before its assertion (C102), so it shows nothing about the result.", "anchors": ["tests/test_tile_features.py:14-125", "src/ramwich/blocks/vfu.py:1-207", "src/ramwich/tile.py:86-123"]}
{"id": "C104", "title": "The accuracy that the multi-process MNIST test prints", "statement": "tests/test_mlp_on_mnist_multi.py shares the samples out among the workers so that the lists one after the other are 0..n-1 and their lengths differ by at most one (a worker is idle iff there are fewer samples than workers; without workers it raises). The class of an output is the first position of its largest word. Each result of a worker depends on its own image, label and noise only, although a worker processes its samples with one simulator. The accuracy that is printed is, for any number of workers, any order in which they end and any order of events in the simulations, the share of samples whose label is the class of the fixed-point network; it is the accuracy of the network in rational numbers where one output exceeds the others by more than twice the error bound of C91. With the shipped latencies every such evaluation can come to its end.", "quantifier": "all numbers of samples and workers, images with 784 values in range, labels, weights, noise, activation functions, orders of completion and schedules", "why_tests_cant": "The test runs one number of workers on one machine and prints a number; that the number does not depend on the split, on the order of completion or on the runs before is about all splits and schedules.", "anchors": ["tests/test_mlp_on_mnist_multi.py:14-123", "src/ramwich/ramwich.py:181-219"]}
{"id": "C105", "title": "tests/test_core_features.py for all weights, activations and schedules", "statement": "For any 128x128 weights of the two cores, any activation of 128 words and any order of events, the run of the test never raises, can always be continued to its end and ends in every continuation with the same words at 256..383 of the DRAM of tile 2: the rectified product of the second matrix with the rectified product of the first with the activation, each in the fixed-point arithmetic of the crossbars and each clipped to 0..255. So the assertion of the test fails for all weights and activations for which an element of its expected output is greater than 255 (for example weights 2, activation 1).", "quantifier": "all weights, activations, noise, activation functions and schedules", "why_tests_cant": "The test draws one pair of matrices and one activation at random and runs one order of events; the result is about all of them, and so is the set of inputs for which its own assertion cannot hold.", "anchors": ["tests/test_core_features.py:15-104", "src/ramwich/core.py:127-157", "src/ramwich/tile.py:103-124"]}
{"id": "C106", "title": "tests/test_core_features.py with integer weights: the exact result, and when its assertion holds", "statement": "The test loads integer weights into a format with one bit before the point. For every order of events, every run that has ended has computed with the parities of the weights (with their signs): word r of the output is the sum over j of parity(w1[r][j]) times the hidden value j, the hidden values being formed in the same way from the activation, all clipped to 0..255, provided that no row has 128 odd weights of one sign. So the assertion of the test holds for weights -1, 0, 1 and products of at most 255; with even weights in the first core the output is zero whatever is expected; and with 128 weights 1 and activations 1 the sum is 127 and not 128, because the 8-bit converter saturates at 255.", "quantifier": "all integer weights, activations in 0..255, noise, activation functions and schedules", "why_tests_cant": "The test draws weights from -3..2 at random, so it meets the wrapped weights at once but says nothing about which weights are computed right.", "anchors": ["tests/test_core_features.py:15-104", "src/ramwich/mvmu.py", "src/ramwich/blocks/adc.py"]}
{"id": "C107", "title": "The energy and area report in float64", "statement": "With every addition, multiplication and division of get_stats, StatsDict.merge, update_leakage_energy, summary and print rounded to float64, the report raises the same exception as the exact one or has the same names; activation counts are exact; under a name that m components have, each energy and area differs from the exact sum over these components by at most (m+6)*2^-52 of it; the summary of m components by at most (m+7)*2^-52 of the exact sum, and the printed totals (in joules) by at most (m+9)*2^-52. The error is real: a twelfth of the energy of a packet is not a float64.", "quantifier": "all simulators, all non-negative power and area numbers and counters, up to 2^52 components", "why_tests_cant": "Tests compare a few reports with numbers from the same code; that rounding cannot accumulate beyond a bound for any machine size and any order of merging needs a proof over all reports.", "anchors": ["src/ramwich/stats.py", "src/ramwich/ramwich.py:203-219", "src/ramwich/node.py:52-70", "src/ramwich/tile.py:135-172", "src/ramwich/core.py:166-195"]}
{"id": "C108", "title": "What a call of run prints in float64", "statement": "After a call of run that has returned, the float64 report is bit for bit that of a simulator of which only the texts of the programs and the times of the run are known (the same dictionary with the same numbers, or the same exception). For sizes in the tables of config.py and numbers that are not negative there is a report, and the printed totals are within (m+9)*2^-52 of the least and the largest energies that these texts allow (m the number of components). For the MNIST example: dynamic energy from 5.281835 to 10.936819 microjoules, leakage from 18.667402 to 493.360702 microjoules, area 35.518876144 up to 1e-9.", "quantifier": "all configurations with sizes in the tables, all operation files that pass the dry run with matching transfers, all weights, activations, noises, earlier calls and orders of events", "why_tests_cant": "A test sees one order of events and one set of weights; that neither data nor noise can change a bit of the rounded report, and that it stays between fixed bounds, is a statement about all runs.", "anchors": ["src/ramwich/ramwich.py:170-219", "src/ramwich/stats.py", "src/ramwich/config.py", "examples/mlp_l4_mnist"]}
{"id": "C109", "title": "The tests of the DRAM controller for all data, latencies and orders of events", "statement": "Any number of processes that sleep, submit requests and wait for their events run beside a DRAM controller. If their requests fit, they wait only for events they have, every word that is read is valid at the start or written by a process that need not wait for a read first, and at most one read may have to wait for data, then nothing raises, env.run(until=T) returns for every T, and when T exceeds the sum of all delays and service times every process has ended and every request is answered. The five tests of tests/test_dram_controller.py follow for all addresses, data, delays and latencies, with the exact times at which the single write, the read of valid data and the waiting read return. With two waiting reads the claim is false: one of them is never answered.", "quantifier": "all scripts of all numbers of processes, all DRAM contents, addresses, data, delays, latencies >= 0 and orders of events", "why_tests_cant": "The tests run five scripts with one latency, one address and the one order of events that simpy happens to take.", "anchors": ["tests/test_dram_controller.py", "src/ramwich/blocks/dram_controller.py:110-286"]}
{"id": "C110", "title": "tests/test_mvm.py for all weights, vectors and noise", "statement": "Writing a vector to unit 0 of a core of the example configuration, executing a product and reading the registers never raises, whatever was done with the core before. The vector that is read through the address space is the contents of the registers rounded down to multiples of 1/256. For vectors as the test draws them, if no converter can saturate, the weights fit and the noise stays below half a step, the precise output is the product with the weights rounded to multiples of 1/256: it differs from numpy's product by at most 1/512 of the sum of the vector, the output by at most 1/256 more, not at all for weights that are multiples of 1/256, and by 100 percent for rows of weights of at most 1/512. When a converter saturates the error is larger: 128 weights 3/256 and a vector of ones give 255/65536 instead of 384/65536.", "quantifier": "all matrices, all vectors, all read noise (below half a step where the exact product is claimed), all histories of the core", "why_tests_cant": "The test prints the error ratios of one random vector with one weight file and asserts nothing.", "anchors": ["tests/test_mvm.py:18-38", "src/ramwich/core.py:81-125", "src/ramwich/mvmu.py:73-217", "src/ramwich/blocks/outreg.py:56-79"]}
{"id": "C111", "title": "tests/test_load.py for every file of weights", "statement": "After the constructor has loaded a file of operations and a file of weights, every single cell of every crossbar of every unit holds what belongs to the last matrix of the right size that the file has for the unit: an analog cell the conductance of its part of the weight in the crossbar for the sign of the weight and zero in the other one, a digital cell its bit in the same way, and zeros if there is no such matrix. The operations of every tile and core are those of the file for it, in order. For the example of the repository the first assertion of the test (first operation of tile 0) holds for every file of weights, and the second one (neg_xbar[0][0][0] == 1 in tile 2, core 0, unit 0) holds exactly when the weight is negative and its magnitude in steps of 1/256 has remainder 3 modulo 4.", "quantifier": "all files of weights (ids of at most 4300 digits), all lists of operations, all simulable configurations, all units and all cells", "why_tests_cant": "The test checks one operation and one cell with the one weight file of the repository.", "anchors": ["tests/test_load.py:11-22", "src/ramwich/ramwich.py:22-133", "src/ramwich/mvmu.py:73-140"]}
{"id": "C112", "title": "The numbers of config.py in float64, and reports with them", "statement": "Python rounds each decimal, table entry and operation of config.py to float64. The default formulas (also those with subtractions) give non-negative numbers within three roundings of the exact ones. If all numbers of a configuration are within j roundings of exact ones (given decimals and defaults are, with j = 3), the lookups of all configuration classes raise the same exception as with exact numbers, or every number that a report reads is within j roundings and the same ones are missing. A float64 report made with these numbers has exact activation counts, and each energy and area is the sum over the components with exact numbers up to (m + 6 + j) units of 2^-52 of it, m the number of components of that name; for the printed totals it is (m + 9 + j), m the number of all components.", "quantifier": "all configurations and values near exact ones, all sizes and rates inside or outside the tables, all simulators with non-negative counters", "why_tests_cant": "A test compares two runs with the same rounded constants; it cannot bound the distance to the exact decimals for all configurations.", "anchors": ["src/ramwich/config.py:64-96", "src/ramwich/config.py:103-212", "src/ramwich/config.py:226-295", "src/ramwich/config.py:302-438", "src/ramwich/config.py:445-595"]}
{"id": "C113", "title": "What utils/visualize.py shows", "statement": "summarize_results never raises on a report of get_stats, but shows nothing of it: it prints 0 operations and time 0 and draws no chart (the call in run.py is commented out). For an argument with the entries it expects and one or four types of operations, the chart of components shows the counts of all nodes, tiles and cores, or ten of them if there are more, and none left out has a larger count than one shown; a line is printed for every component at every depth, indented by the depth, with its operations and time, and no other. Before that it prints the sum of the counts and the time and draws counts, averages and, if there are any, times of completion. Without numbers or components only the sum and the time are printed. With any other number of types (also none) it raises ValueError before the figure is saved. With one or four types and, under components, an object or a non-empty dictionary of numbers in place of a list, it raises AttributeError after the first two charts and saves no figure.", "quantifier": "all simulators, configurations and reports; all dictionaries with trees of components of any depth; any order of equal counts by np.argsort", "why_tests_cant": "No test calls visualize.py; trees have any depth and number of components, and the report of every simulator is covered.", "anchors": ["src/ramwich/utils/visualize.py:10-27", "src/ramwich/utils/visualize.py:30-117", "src/ramwich/utils/visualize.py:120-133", "run.py:22-24"]}
{"id": "C114", "title": "Workers that fail in tests/test_mlp_on_mnist_multi.py", "statement": "Whichever workers raise an exception and in whichever order they end, the accuracy that main prints is the share of right results among the samples of the workers that do not fail, and it raises ZeroDivisionError if there is no such sample. One line is logged per worker; a worker is logged as failed if it raised or if it had no samples, so with more workers than samples exactly the workers from n on are logged as failed although none raised, and the accuracy is that of all n samples. A worker logs its progress after the first, each tenth and the last sample, with the share of right ones so far. A failure can raise the accuracy that is printed. For the MNIST example the results are those of the network: the share of samples whose label is the class of its outputs, among the samples of the workers that return.", "quantifier": "all numbers of samples and workers, all sets of failing workers and exceptions, all results, all orders of completion", "why_tests_cant": "The script runs one order of completion, usually without failures; which workers fail and when they end is up to the machine.", "anchors": ["tests/test_mlp_on_mnist_multi.py:36-58", "tests/test_mlp_on_mnist_multi.py:82-118"]}
{"id": "C115", "title": "tests/test_mlp_on_mnist_single.py for every image, weights, noise and order of events", "statement": "Whenever run with an activation file of 784 numbers returns, the script prints the ten outputs of the network divided by 256 and the first position of the largest. With the shipped latencies there is an order of events in which it returns, after 86797 cycles. Where the units are exact and in the network with rational numbers one output exceeds the others by more than twice the error of C91, its position is the label that is printed, and each printed output is within that error.", "quantifier": "all operation files that write the shipped operations, all weight files, images, noise and orders of events", "why_tests_cant": "The script runs one image and prints the constant 7 beside the label without comparing them.", "anchors": ["tests/test_mlp_on_mnist_single.py:12-26", "src/ramwich/ramwich.py:135-151", "src/ramwich/ramwich.py:181-199"]}
