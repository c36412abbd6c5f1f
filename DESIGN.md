# Formal model of hvcc - design

hvcc has three parts, and the model follows them.

1. The Pd reader `hvcc/interpreters/pd2hv` (Python): text to graph.
2. The compiler `hvcc/core/hv2ir` and the code generator `hvcc/generators/ir2c` (Python): graph to C.
3. The runtime `hvcc/generators/ir2c/static` and the generated context class (C/C++), with the glue of the DPF and JS
   targets (`hvcc/generators/c2dpf`, `c2js`).

The model is in Lean 4 under `lean/Verif/`: `Verif/X.lean` is the model of one part of the code, function by function, every
definition with the lines of /repo it models; `Verif/XProofs.lean`, where it exists, has helper lemmas; `Verif/Props/X.lean` has
the specification, the theorems and the non-vacuity examples.

How code becomes Lean:

* C/C++/Python functions become total functions. Failed assertions, undefined behaviour (reads and writes outside an
  object, uninitialised variables, conversions out of range, overflow of signed integers), Python exceptions and non-termination
  are *distinct outcomes*, never totalised away.
* Memory: the light pipe, messages, the message pool, message boxes and switchcase work on byte-addressed little-endian memory
  (64-bit platform); the message queue on a heap of nodes with pointers; tables on buffers with their real allocated length.
* Concurrency: the light pipe is a small-step machine of two threads, one step per access to shared memory, any schedule.
* Integers: 32-bit words are `BitVec 32` or naturals with explicit wrap-around where the code can wrap.
* Floats: bit patterns where code looks at bits (samphold, casts, hashes, unary operators), otherwise exact arithmetic in `Rat`
  or any commutative ring: **rounding is not modelled**, and every theorem that depends on this says so.
* SIMD: a vector is a function on its lanes; each back end (scalar, SSE, AVX, NEON) is modelled by its own intrinsics.
* Things outside the modelled part are parameters over which theorems quantify: what the objects of a patch do with a message, the
  signal code of an object, the C library's functions, Python's `set.pop` and dictionary order, `realloc`, the recursion limit.

A property that is false of the code is not proved in a weakened disguise: the negation is proved with a witness, the true part
is proved under the exact condition (suffix `_partial`), and the discrepancy is listed under Findings.

## Properties: model, method, theorems

### C01 Light pipe is a lossless FIFO between two threads (partial)

byte-level small-step machine of producer and consumer (one step per 32-bit word access / payload byte), any schedule; ghost FIFO of produced-not-consumed messages; invariant + refinement. Word-aligned sizes needed (finding F1): partial + counterexample. Store buffers: simulation by the sequential machine with a late producer that decides from an old read head; laps of the ring order the positions.

Theorems: `Verif/Props/LightPipe.lean`: `pipe_fifo_partial`, `pipe_no_loss_partial`, `pipe_delivers_all_partial`, `unaligned_loses_messages`; `Verif/Props/LightPipeTso.lean`: `tso_fifo_partial`, `tso_delivers_all_partial`, `early_loads_break`.

Scope: Proved for messages whose size is a positive multiple of 4; for other sizes the property is false of the code (finding F1, witness unaligned_loses_messages). Memory models: sequential consistency of single accesses, and store buffers (x86-TSO: every delay of the stores of either thread). False on machines that reorder loads (ARM), as the consumer has no barrier (F64, early_loads_break).

### C02 Light pipe never touches memory outside its buffer (partial)

same machine: every step's address range is proved inside [0,len).

Theorems: `Verif/Props/LightPipe.lean`: `pipe_memory_safe_partial`; `Verif/Props/LightPipeTso.lean`: `tso_memory_safe_partial`.

Scope: Sequential consistency and x86-TSO. Word-sized messages only (see F1).

### C03 A drained light pipe accepts every message that fits (partial)

negation (finding F2) + partial for messages of at most half the pipe.

Theorems: `Verif/Props/LightPipe.lean`: `drained_pipe_accepts_partial`, `drained_pipe_refuses`.

Scope: False of the code in general (finding F2, witness drained_pipe_refuses); proved when the message fits before the wrap point or before the read position.

### C04 Message queue delivers in timestamp order, first-come-first-served on ties (proved)

list-level queue model (sorted, stable), induction over operation histories; transferred to the pointer model by C05.

Theorems: `Verif/Props/MessageQueue.lean`: `queue_pops_earliest_first`, `queue_sorted_stable`.

Scope: Histories of timestamped insertions, pops, cancellations and clears on the pointer-level list; addresses of pending messages distinct (C11). Timestamps are naturals: the 32-bit wrap-around is the subject of C08/C09.

### C05 Linked-list queue implements an abstract sequence (proved)

heap-of-nodes model of HvMessageQueue.c; refinement to lists.

Theorems: `Verif/Props/MessageQueue.lean`: `queue_refines_sequence`, `queue_traversals_agree`, `queue_nodes_partition`, `queue_free_frees_all`.

Scope: All histories of mq_addMessage, mq_addMessageByTimestamp, mq_pop, mq_removeMessage, mq_clear, mq_free.

### C06 Cancelling a scheduled message removes that message only (proved)

both levels.

Theorems: `Verif/Props/MessageQueue.lean`: `cancel_removes_exactly`.

### C07 mq_clearAfter drops exactly the messages at or after a timestamp (partial)

heap model; negation witness (finding F3) + list-level partial.

Theorems: `Verif/Props/MessageQueue.lean`: `clearAfter_partial`, `clearAfter_breaks_queue`.

Scope: False of the code when some but not all messages are dropped (finding F3, witness clearAfter_breaks_queue); the partial theorem covers the backward links and the all/none cases.

### C08 process() dispatches every due message exactly once, in time order, before its block (partial)

model of process() dispatch loop with arbitrary handlers that insert into the queue; counterexample for handlers inserting before the head (F4), theorem for handlers that only insert at or after the time of the message being handled.

Theorems: `Verif/Props/Scheduler.lean`: `scheduler_never_faults_partial`, `scheduler_exactly_once_partial`, `process_dispatch_partial`, `dispatch_terminates_partial`, `early_insert_loses_message`, `clock_wrap_strands_message`.

Scope: Proved for handlers that schedule at or after the time of the message being dispatched and do not cancel it, and while the 32-bit clock does not wrap; false of the code otherwise (findings F4, F22; witnesses early_insert_loses_message, clock_wrap_strands_message).

### C09 process() advances the clock by exactly the samples it renders (proved)

process loop model with BitVec 32 clock.

Theorems: `Verif/Props/Scheduler.lean`: `process_clock`, `processControl_clock`, `clock_is_total_frames`.

Scope: For non-negative block sizes; the clock is a 32-bit counter.

### C10 A host message with a delay fires in the block containing its due time (partial)

corollary of C08 with the timestamp computation.

Theorems: `Verif/Props/Scheduler.lean`: `sendTimestamp_spec`, `host_message_block_partial`.

Scope: Exact arithmetic instead of double; same restrictions as C08; inQueue assumed not full.

### C11 Message pool never gives overlapping memory to live messages (proved)

allocator model: chunks (offset, class); invariant by induction over histories.

Theorems: `Verif/Props/MessagePool.lean`: `pool_live_messages_intact`, `pool_writes_inside`.

Scope: All histories of adds and frees, both variants of hv_min_max_log2.

### C12 Message pool does not leak (partial)

allocator model: exact reuse for consistent sizes; negation for over-counted symbols (F5).

Theorems: `Verif/Props/MessagePool.lean`: `pool_never_exhausted_partial`, `overcounted_message_leaks`, `seven_character_symbol_leaks`.

Scope: Proved for messages whose declared size is in the class of their real size; false of the code for over-declared messages (finding F5, witnesses overcounted_message_leaks, seven_character_symbol_leaks).

### C13 Copying a message preserves its contents and needs exactly its declared size (proved)

message = list of elements, memory image as bytes with pointers; copy and decode round-trip.

Theorems: `Verif/Props/Message.lean`: `copyToBuffer_correct`, `copy_keeps_original`, `copy_correct`, `copy_of_copy`.

Scope: Byte-level; source and destination disjoint.

### C14 A message's declared byte size covers its contents (partial)

size accounting of each constructor; negations F5, F6.

Theorems: `Verif/Props/Message.lean`: `built_message`, `declared_size_never_too_small`, `declared_size_exact_partial`, `declared_size_initWith`, `initWithSymbol_overcounts`.

Scope: False of the code for msg_initWithSymbol, which declares strlen bytes too many (finding F5, witness initWithSymbol_overcounts), and for elements set twice.

### C15 Format and element comparison mean what they say (proved)

direct functional model and specification.

Theorems: `Verif/Props/Message.lean`: `isType_correct`, `hasFormat_correct`, `equalsElement_correct`, `getHash_correct`, `setElementToFrom_correct`.

### C16 Compiler and runtime agree on name hashes (partial)

MurmurHash2 in BitVec 32 on bytes vs Python integers with masking; equality theorem for ASCII, negations for 'bang' and non-ASCII (F7).

Theorems: `Verif/Props/Hash.lean`: `hash_agree_partial`, `hash_platform_independent`, `reserved_hashes_correct`, `hash_bang_differs`, `hash_nonascii_differs`, `hash_nonascii_raises`.

Scope: Agreement proved for every ASCII name other than bang; false for 'bang' and non-ASCII (finding F7, witnesses).

### C17 Resizing a table keeps the data and reports the new length (partial)

table model with explicit allocation; negations F8, F9.

Theorems: `Verif/Props/Table.lean`: `table_resize_partial`, `initWithData_contents`, `onResizeMessage_reports`, `resize_keeps_stale_length`, `resize_length_wrong`, `initWithData_overrun`.

Scope: Data preservation and zero-filling proved for every SIMD width, allocator behaviour and history; the reported length is wrong when the rounded size does not change (F9) and tables with initial data have less memory than declared (F8): witnesses given.

### C18 Control table access stays inside the table (partial)

table model + index conversions over Int; negation for stale index (F10).

Theorems: `Verif/Props/TableAccess.lean`: `tabread_correct`, `tabwrite_correct`, `tabwrite_in_bounds_partial`, `tabwrite_stale_index_faults`.

Scope: Reading is safe and exact after every history; writing is safe unless the table shrinks or is switched after the index was set (F10, witness).

### C19 Random generator output is always in [0,1) and never gets stuck (partial)

Nat recurrence modulo the prime; primality-free coprimality argument; negation for seeds -5/0 (F11).

Theorems: `Verif/Props/Random.lean`: `random_in_range`, `random_integer_range`, `random_full_period_partial`, `init_good`, `random_stuck`.

Scope: Range proved for every history; full period 4294967290 proved from every state that is not a multiple of the modulus; false for the seed -5 and the reseeding message 0 (F11, witness random_stuck).

### C20 Binary operators are total and guarded (partial)

operators over exact rationals/ints with fault outcome; negation for |k|<1 unipolar mod (F12).

Theorems: `Verif/Props/Binop.lean`: `binop_undefined_iff`, `binop_computes`, `binop_history`, `binop_total`, `binop_constant_operand`, `mod_fraction_divides_by_zero`, `shl_negative_undefined`.

Scope: Exact arithmetic (finite floats as rationals). Every operator proved for all operands and histories; the undefined operands are characterised exactly; the claim of totality is false of the code for [mod] with a fractional operand (F12), for shifts out of range and for values that do not fit an int.

### C21 Delay object: each queued message is emitted once unless cleared (partial)

object + queue model.

Theorems: `Verif/Props/Delay.lean`: `delay_exactly_once`, `delay_time`, `delay_accepts`, `clear_cancels_partial`, `flush_emits_partial`, `direct_insert_same`, `flush_feedback_escapes_clear`, `flush_breaks_queue_order`, `delay_ninth_refused`.

Scope: Exactly-once proved for all histories (at most 8 waiting); clear and flush proved for histories in which a flushed message does not come straight back, false otherwise (F28, witness flush_feedback_escapes_clear); a flush may also leave the queue out of order (F27, witness).

### C22 List objects compute the documented list functions (partial)

list functions; negations F6, F13.

Theorems: `Verif/Props/Lists.lean`: `slice_computes`, `slice_setting_silent`, `slice_bytes`, `slice_of_symbol_cannot_be_copied`, `pack_emits_latest_partial`, `pack_symbol_faults`, `pack_symbol_stores_wrong`, `unpack_emits`, `route_routes`, `select_selects`, `route_misses_negative_zero`, `route_symbol_faults`.

Scope: Slice, unpack, route and select proved for every message and history, also at byte level for slice; false of the code for negative starts and symbols in slices (F6), symbols on the right inlets of pack (F13), negative zero and a lone 'symbol' in route/select (F29): witnesses given.

### C23 Stored-value objects hold the last value (proved)

state machine per object.

Theorems: `Verif/Props/Stored.lean`: `stored_value_is_latest`, `if_routes`, `cast_converts`, `cast_keeps_time`, `stored_symbol_lost_by_cast`.

Scope: Symbols are stored by their hash; finding F30 (a stored symbol is dropped by the symbol cast) is stated beside.

### C24 One-sample delay is independent of SIMD width and block boundaries (partial)

lane-list models per back end; stream equality by induction over blocks.

Theorems: `Verif/Props/Simd.lean`: `del1_scalar`, `del1_sse`, `del1_neon`, `del1_avx_is`, `del1_avx_is_not_a_delay`, `del1_avx_with_0x21`.

Scope: Proved for scalar, SSE and NEON; false for AVX (finding F31): every eighth sample is nine samples late, exactly characterised; with the constant 0x21 instead of 0x1 the AVX code is proved right.

### C25 Recursive pole filter: block-vector code equals the recurrence (partial)

commutative ring, lane models, induction over blocks.

Theorems: `Verif/Props/Simd.lean`: `rpole_scalar`, `rpole_sse`, `rpole_neon`, `rpole_avx_is_not_a_pole`, `rpole_avx_with_0x21`.

Scope: Exact arithmetic (any commutative ring). Proved for scalar, SSE, NEON; false for AVX because its one-sample delay is wrong (F31, witness); the AVX unrolling itself is proved right for a correct delay.

### C26 Sample-and-hold holds the last triggered value (partial)

lane models with masks; NEON fall-through finding F14.

Theorems: `Verif/Props/Samphold.lean`: `samphold_sse`, `samphold_scalar`, `samphold_back_ends_agree`, `samphold_neon_partial`, `samphold_neon_wrong`, `latest`.

Scope: Proved for SSE and scalar code for every signal, trigger and message history; for NEON five of the sixteen trigger patterns give a wrong output (missing breaks, F14), exactly characterised; the AVX code is an assertion that fails.

### C27 Interleaved and planar processing agree (partial)

index permutation models; AVX finding F15.

Theorems: `Verif/Props/Interleave.lean`: `interleaved_correct_partial`, `interleaved_avx`, `interleaved_avx_wrong`, `interleaved_check`, `splitInput_is`, `processInline_is`.

Scope: Proved for every block size, channel count and back end except AVX with two output channels, where frames come out in the order 0 1 4 5 2 3 6 7 (F15, exactly characterised). The signal code itself is a parameter.

### C28 line~ ramps linearly to its target and stays there (partial)

exact arithmetic model of both back ends; findings F16.

Theorems: `Verif/Props/Line.lean`: `line4_ramp_partial`, `line8_ramp_partial`, `line1_ramp_partial`, `rampSpec_end`, `line4_jump`, `line8_jump`, `line4_stop`, `line8_stop`, `line4_retrigger`, `line8_retrigger`, `line1_retrigger`, `line4_retrigger_skips`, `line8_overshoots`, `line4_leaves_target`, `line8_leaves_target`, `line1_overflow`.

Scope: Exact arithmetic. The ramp is proved linear and to end on the target for every state and every back end, for 2^31 samples after the target; false afterwards (the counter wraps, resp. overflows), and false for retriggers, which start N to N+1 samples ahead of the last output (F16): exact characterisations and witnesses given.

### C29 Phasor phase accumulation is exact and independent of block splitting (partial)

BitVec 32 lane models.

Theorems: `Verif/Props/Phasor.lean`: `phasor_sse`, `phasor_neon`, `phasor_scalar`, `phasorK_simd`, `phasorK_scalar`, `sum`, `since`, `output_eq`, `output_range`, `phasor_back_ends_differ`, `avx_wrap_halves`, `avx_wrap_keeps`.

Scope: The 32-bit phase is proved exact for SSE, NEON and scalar code for every step signal and message history; the conversion of frequency to step is C76. False across back ends: the scalar signal phasor is one step behind (F32, witness); the AVX float phase is wrapped by halving (F33, avx_wrap_halves).

### C30 Signal objects run after everything they depend on, exactly once (partial)

DFS over arbitrary finite graphs with visited marks; nested graphs by induction on the nesting.

Theorems: `Verif/Props/SignalOrder.lean`: `signal_order_correct`, `signal_order_acyclic`, `reaches_leaf`, `control_feedback_breaks_order`, `cycles_are_dropped`; `Verif/Props/SignalTree.lean`: `tree_order_correct`, `sig_iff`.

Scope: Proved for every graph: exact set, each once, each after all objects feeding it unless the connection closes a cycle of signal *and control* connections; for every nesting of subpatches (tree_order_correct): each signal object of each subpatch exactly once. The claim itself (acyclic in its signal connections only) is false: control feedback through env~ reverses the order (F39, proved).

### C31 Buffer sharing never corrupts a signal (partial)

pool + assignment model, live-range invariant; execution equivalence. Nested graphs: the run is a list of steps (object, shared buffer), readers of a buffer are counted.

Theorems: `Verif/Props/SignalBuffers.lean`: `compile_correct`, `assignAll_ok`; `Verif/Props/SignalPipeline.lean`: `compiler_correct`; `Verif/Props/SignalTree.lean`: `tree_compile_correct`, `wire_is_silent`; `Verif/Props/SignalTreePasses.lean`: `tree_compiler_correct`; `Verif/SignalActs.lean`: `runActs_ok`.

Scope: Proved for every flat graph and for every nesting of subpatches (tree_compile_correct: shared buffers at inlets and outlets, retain counts) whose signal connections do not lie on a cycle of one graph (control connections included, F39); exact addition at dac~. Subpatches that a signal leaves must process a signal: one that only passes a signal through is silent (F54, proved).

### C32 The declared number of temporary buffers covers all used indices (proved)

pool invariant by induction.

Theorems: `Verif/Props/SignalBuffers.lean`: `pool_history`, `compile_correct`.

Scope: All histories of get/retain/release; compile_correct has the bound for whole programs.

### C33 Multiple signal connections to one inlet are summed (proved)

the pass over the objects of all subpatches, object by object; each new addition is a refinement step on the family of signals (commutative monoid); invariants over the visiting list.

Theorems: `Verif/Props/Cascade.lean`: `cascade_correct`, `pipeline_correct`; `Verif/Props/SignalPipeline.lean`: `compiler_correct`; `Verif/Props/SignalTreePasses.lean`: `tree_cascade_correct`, `tree_compiler_correct`.

Scope: cascade_correct: every graph. tree_cascade_correct: every nesting of subpatches. Exact addition (any commutative ring). compiler_correct, tree_compiler_correct: cascade, fusion, ordering, buffer assignment and execution together, up to the sums at all dac~ of all subpatches.

### C34 Fusing multiply-add preserves the signal (proved)

graph rewriting on the object graph of every subpatch; each replacement is a refinement step in both directions (commutative ring).

Theorems: `Verif/Props/Fma.lean`: `fma_correct`, `fmaMatch_fused`; `Verif/Props/SignalTreePasses.lean`: `tree_fma_correct`, `tree_compiler_correct`; `Verif/Props/SignalPipeline.lean`: `compiler_correct`.

Scope: fma_correct: every graph without a cycle of signal connections (cycles closed by messages are allowed), signals unchanged in both directions. tree_fma_correct: every nesting of subpatches. Exact arithmetic (any commutative ring). On ARMv8 the run-time function __hv_fms_f itself has the wrong sign (F66, C60).

### C35 Receivers fire in priority order (partial)

sort model; encoding collision finding.

Theorems: `Verif/Props/Control.lean`: `control_correct`, `fire_order_exists_unique`; `Verif/Props/PdReceive.lean`: `deeper_receivers_first`, `explicit_priority`, `priority_zero_ignored`, `crowded_order`.

Scope: Every receiver once, by descending priority, ties in registration order: proved for every patch. Deeper Pd receivers first: proved for up to 1000 receivers in the patch; false beyond (F20, crowded_order). A priority 0 given by the user is ignored (F40).

### C36 Dollar arguments are substituted independently (partial)

string substitution model; findings.

Theorems: `Verif/Props/Dollar.lean`: `pd_args_partial`, `value_arg`, `value_default`, `value_zero`, `order_matters`, `missing_stays`, `two_unresolved`, `heavy_args_partial`, `heavy_whole_partial`, `heavy_unknown`, `heavy_prefix`.

Scope: Proved, for every visiting order, when no reference is a prefix of another one and values contain no '$'; false otherwise (order_matters: \$1 inside \$10 depends on Python's set order; heavy_prefix: $f inside $fm). Two unresolvable references crash the parser.

### C37 Name lookup finds the innermost visible object (partial)

scope tree model.

Theorems: `Verif/Props/Scope.lean`: `resolve_visible`, `resolve_innermost_first`, `resolve_scope_in_order`, `resolveOne_innermost`, `names_unique`, `add_accepts`, `static_twice_refused`, `static_private_invisible`.

Scope: Visibility, order, innermost resolution and uniqueness are proved for every history of additions and removals. The claim about static names is false of the code (F43): a second static declaration is refused and a private static table is invisible outside its own graph.

### C38 route/select/switchcase send each message to exactly one outlet (partial)

hash switch model; collision-freeness stated as hypothesis.

Theorems: `Verif/Props/Switchcase.lean`: `switchcase_exactly_one_partial`, `switchcase_one_outlet`, `number_taken_for_name`, `case_symbol_unreachable`, `compiles_iff`; `Verif/Props/Lists.lean`: `route_routes`, `select_selects`, `route_misses_negative_zero`, `route_symbol_faults`.

Scope: Byte-level messages and the generated switch (arms and breaks). Exactly one outlet for every message; the right one unless 32-bit hashes collide. False of the code: every name has a number that is taken for it (F44), the case 'symbol' is unreachable, [route 1 1.0] does not compile, -0.0 and a lone 'symbol' (F29).

### C39 Compiled expr~ computes the expression (partial)

AST, instruction list, interpreter; nondeterministic allocator; finding F17 (buffer >= 10).

Theorems: `Verif/Props/ExprSig.lean`: `expr_correct_partial`, `bare_expression_writes_nothing`, `eleventh_buffer`.

Scope: Proved for every expression tree that is more than a single variable or number and never holds more than ten buffers, for every choice of set.pop, every algebra of lane-wise functions in which 0.0 - x is the negation. False otherwise: a bare variable/number writes nothing; the release of Bf10 releases Bf1 (F17). From text to tree: C63.

### C40 Variables in control expr refer to the right inlet (proved)

token-level replace model.

Theorems: `Verif/Props/ControlExpr.lean`: `bindExpr_correct`.

Scope: Every expression text made of variables, words, escaped commas and other characters in which words and variables do not touch; also covers the renaming of functions.

### C41 Every expr~ object calls its own evaluator (proved)

accumulating dictionary model.

Theorems: `Verif/Props/ExprSig.lean`: `own_evaluator`.

Scope: Every number and order of expr~ objects with distinct ids.

### C42 Pd file lines and arguments are tokenised faithfully (partial)

line joining and splitting on lists of characters.

Theorems: `Verif/Props/PdText.lean`: `file_read_partial`, `statements_read_partial`, `splitLine_args_partial`, `backslash_swallows_statement`, `backslash_joins_arguments`, `two_on_a_line`.

Scope: Proved for every file whose statements and arguments do not end in a backslash, any line breaks at spaces, LF or CRLF; false with a trailing backslash and for two statements on one line (F45). '\d' restricted to ASCII digits.

### C43 Array contents match the declared size (partial)

negation F18 + partial.

Theorems: `Verif/Props/PdArray.lean`: `array_contents_partial`, `array_too_short`, `array_too_long`.

Scope: Proved for arrays saved with all their values, in any number of #A lines, and for arrays saved without contents. False otherwise (F18): with 0 < v < n values the table has v samples, with v > n it has 2v-n.

### C44 Inlets and outlets are numbered by horizontal position (proved)

insertion sort model.

Theorems: `Verif/Props/PdLets.lean`: `lets_left_to_right`, `lets_any_order`, `connection_type`.

Scope: Every list of objects with distinct ids, every order; from the Pd parser through the JSON to the inlet list of hv2ir. Ties at the same x are numbered in file order.

### C45 Control messages fan out depth-first in connection order (proved)

recursive send model.

Theorems: `Verif/Props/Control.lean`: `control_correct`; `Verif/Props/ControlTotal.lean`: `compile_total`, `circle_fails`; `Verif/Props/ControlExample.lean`: `code_does`; `Verif/Props/Lists.lean`: `unpack_emits`.

Scope: Every patch with any nesting of subpatches, triggers, sends and receives, any behaviour of the objects (they may keep state and send in any order); the recursion of generated C functions ends exactly if the patch's does.

### C46 MIDI events are translated without loss (partial)

byte-level BitVec model; findings.

Theorems: `Verif/Props/Midi.lean`: `midi_in`, `midi_in_partial`, `midi_in_wrong_time`, `midiin_diagonal`, `midiin_out_of_bounds`, `realtime_undefined`, `midi_out_partial`, `bend_round_trip`, `status_byte_partial`, `polytouch_becomes_control`, `note_above_127`, `bendout_object`, `midiout_groups`, `midiout_uninitialised`, `midiout_mixes`, `js_midi_in`, `js_midiin_no_status`, `js_midi_out`, `js_midiout_program`.

Scope: DPF and JS targets. Receiver, channel and data are right for every list of channel messages; the time is that of the first event of the block (false as soon as frames differ), [midiin] gets the wrong bytes, realtime messages read a missing argument, [polytouchout] on a second port becomes a control change, [midiout] starts from an uninitialised counter and writes groups of four (F21, F49-F52). Daisy and OWL (library classes) are not modelled.

### C47 Message boxes substitute $n from the incoming message (partial)

functional model.

Theorems: `Verif/Props/MessageBox.lean`: `message_box_partial`, `box_read_partial`, `remote_read`, `remote_only_is_local`, `dollar_missing`, `dollar_zero_undefined`.

Scope: From the text of the box in the .pd file through PdMessageObject, hv2ir and the generated C to the messages in memory, for every box of one or more local messages made of numbers, names and $n. False for $0 (undefined behaviour), for $n beyond the incoming message (the element is left unwritten) and for boxes with only remote messages (F46, F47).

### C48 Recursive abstractions are detected (partial)

call-stack model; finding.

Theorems: `Verif/Props/PdAbs.lean`: `no_error_no_recursion`, `recursion_is_an_error`, `self_not_read_again`, `self_recursion_detected`, `no_false_alarm`, `mutual_recursion_doubles`, `mutual_recursion_is_an_error`, `hv_terminates`.

Scope: Every set of complete files. Recursive inclusion always ends in an error, but for mutual recursion only through Python's recursion limit, which is a parameter: with two inclusions per file the number of files read is 2^(limit/2) (F19), i.e. the compiler does not terminate in practice. hv2ir's own path stack is proved to terminate for every finite set of files.

### C49 Signal table playback and recording stay inside the table (partial)

head position model.

Theorems: `Verif/Props/TableSignal.lean`: `playback_in_bounds_partial`, `playback_plays_table`, `looping_read_in_bounds_partial`, `random_read_in_bounds`, `recording_records_partial`, `playback_unknown_table_faults`, `playback_data_table_overreads`, `looping_read_wraps`, `recording_overruns`.

Scope: False of the code for tables with initial data (F8), unknown tables (F24), wrapped heads (F25) and for recording, which never stops (F26); witnesses given, the rest proved for every history.

### C50 Unary operators answer every float exactly once (proved)

the message function of every operator with the mathematical functions of the C library as parameters; case analysis.

Theorems: `Verif/Props/Stored.lean`: `unop_answers`.

Scope: Library functions are parameters; floats are bit patterns.

### C51 Complex pole filter: block-vector code equals the complex recurrence (partial)

lane model of `__hv_cpole_f` over pairs of elements of a commutative ring; induction over blocks.

Theorems: `Verif/Props/Simd.lean`: `cpole_scalar`, `cpole_sse`, `cpole_neon`, `cpole_avx_second_output_unwritten`, `cpole_avx_real_output_is_imaginary`.

Scope: Exact arithmetic. Proved for scalar, SSE, NEON; false for AVX (F37): the imaginary output is never written and the real output receives the imaginary part.

### C52 Biquad filter with signal coefficients equals its difference equation (proved)

lane model of `__hv_biquad_f` over a commutative ring; induction over blocks.

Theorems: `Verif/Props/Simd.lean`: `biquad_scalar`, `biquad_sse`, `biquad_neon`, `biquad_avx`.

Scope: Exact arithmetic (any commutative ring).

### C53 Biquad filter with message coefficients equals its difference equation (proved)

lane model of `__hv_biquad_k_f` and of the coefficient matrix; the matrix is proved to unroll the recurrence; induction over blocks and coefficient changes.

Theorems: `Verif/Props/Simd.lean`: `biquadK_scalar`, `biquadK_sse`, `biquadK_neon`, `biquadK_avx`.

Scope: Exact arithmetic (any commutative ring); coefficients may change between blocks.

### C54 MIDI clock made from the host transport is exact across blocks (partial)

the block function over exact rationals, including the loop that produces the ticks (with its possible non-termination as an outcome); induction over blocks.

Theorems: `Verif/Props/Transport.lean`: `clock_ticks`, `tickAt_const`, `tempo_between_ticks`, `first_tick_at_once`, `negative_tempo_hangs`.

Scope: Proved for every sequence of positive tempos, blocks, starts and stops, in exact arithmetic: every tick is a 24th of a beat before the next in the tempo at the time of the tick; for a steady tempo the multiples of a 24th of a beat. False for negative tempos (the loop does not end); the ticks are not aligned with the host's beats (F53) and a tempo set between two ticks is not heard (F119).

### C55 Remote messages and the send and receive names of GUI boxes are delivered (partial)

the statements of a canvas, the dictionaries of remote messages and GUI names, and the objects and connections added from them; every connection of the final graph is traced to its reason by an invariant.

Theorems: `Verif/Props/PdRemote.lean`: `original_kept`, `remote_delivered_partial`, `remote_exactly`, `gui_sends`, `gui_hears`, `subpatch_delivers_nothing`.

Scope: For every canvas of a file: GUI names exactly right; remote messages delivered exactly for outlet 0 of the objects above, so a box below another outlet sends its remote message when the wrong outlet fires; in subpatches everything is lost (both F48, proved).

### C56 conv~ computes the convolution of its input with the table (partial)

the ring of inputs, both loops and the kernels of each back end over a commutative ring; the ring invariant says which past block each cell holds; induction over blocks and over both loops.

Theorems: `Verif/Props/Conv.lean`: `conv_none`, `conv_sse`, `conv_neon`, `conv_long_buffer`, `conv_extra_tap`, `conv_reads_beyond`, `conv_shrink_overruns`, `conv_longer_table_asserts`.

Scope: Proved for scalar, SSE and NEON, every size that is a multiple of the vector width, when the size message equals the table size. False when the ring is longer than the table (extra taps, reads beyond the table: F55), when the size message shrinks or the table grows (F56); AVX has only a failing assertion.

### C57 env~ reports the windowed power of its input at every period (partial)

buffer, loops, horizontal sums of each back end over a field; invariant on the buffered samples; induction over blocks.

Theorems: `Verif/Props/Env.lean`: `env_none_partial`, `env_sse_partial`, `env_neon_partial`, `env_avx_partial`, `env_sizes`, `weights_normalised`, `env_unit_and_silence`, `env_overlap_undefined`, `env_tiny_window`.

Scope: Every window, period and signal in every back end, up to rounding to whole vectors. Periods shorter than half the window copy overlapping memory with memcpy: undefined behaviour, proved right only if memcpy copies forwards (F57); windows of 1 or 2 samples in scalar builds divide by zero (F58).

### C58 The operators of a patch compute in the compiled program what they compute in the patch (partial)

the two lists of every connection, all list operations step by step; invariant: both lists hold the same multiset; each of the ten rewrites preserves the set of solutions of the signal equations and the order of control connections; induction over the objects.

Theorems: `Verif/Props/ReduceAll.lean`: `operators_reduced_partial`, `signals_exist`, `zero_kills_neighbour`, `loop_raises`.

Scope: Every graph without loops of signals, no object connected to itself, floating-point signals, exact arithmetic (any field), any behaviour of all other objects. False for a multiplication by the constant 0 (F59: the neighbour behind it may be removed as well) and for an object connected to itself (F60: the compiler raises an exception).

### C59 Whatever is sent by send~ and throw~ arrives at every receive~ and catch~ of the name (partial)

the pass step by step on the same graph model as C58; one name at a time, the shape of the graph after it is stated and each solution of the signal equations is carried over both ways; the variables at run time by induction over the order of the functions and over vectors.

Theorems: `Verif/Props/RemapAll.lean`: `sends_arrive_partial`, `prepared_partial`, `orphan_mutes`; `Verif/Props/VarExec.lean`: `read_is_late`, `width_matters`.

Scope: Every graph without loops of signals inside one block whose sends and receives of a name are all of signals or all of messages. A [r~] whose name nobody sends to mutes the operator behind it (F62); the delay is 0 or HV_N_SIMD samples and so differs between builds (F63).

### C60 A signal operator gives the same samples in every SIMD build (partial)

each function as a function of (build, vectors of 32-bit words); comparisons, bit operations and lane moves concrete, rounding arithmetic a parameter; a typed language of computations (numbers and masks) and a relation between the lanes of a build and the scalar build, by induction over the computation.

Theorems: `Verif/Props/HvMath.lean`: `unary_exact`, `abs_exact`, `binary_exact`, `div_exact`, `minmax_ok`, `builds_agree`, `signals_agree`, `wrap_agrees`, `sqrt_agrees`, `clip_agrees`, `fma_ok`, `fms_ok`, `cast_after_floor`, `fms_armv8_negated`, `cmp_value_differs`, `neq_nan_differs`, `cast_rounds`, `log2_power`, `onlyScalar_vector`.

Scope: Every computation made of the operators, in every build, up to the sign of zeros and the bits of NaNs, if comparisons are only used as masks, min~/max~ get numbers, and division and roots are not NEON's estimates. False otherwise: comparison values (F65), multiply-subtract on ARMv8 (F66), float to integer (F67), log2 (F68), and some thirty functions that vector builds do not have (F69).

### C61 snapshot~ answers with the sample of the time of the bang (proved)

state machine on 32-bit timestamps; induction over the vectors.

Theorems: `Verif/Props/Snapshot.lean`: `snapshot_answers`, `snapshot_loses_last_tick`.

Scope: All vector sizes 1, 2, 4, 8; the vectors begin at multiples of their size and the messages due in a vector reach the object before its signal function (C08). A message at the time 2^32-1 is taken for none.

### C62 sig~ and constant signals hold one number at every sample (partial)

lanes of every build; induction over the messages.

Theorems: `Verif/Props/Snapshot.lean`: `sig_is_last_number`, `sig_list_is_ramp`, `var_k_lanes`, `var_k_constant`.

Scope: Any commutative ring. False for lists whose second element is a number: they are ramps within each vector, constant in the scalar build (F70).

### C63 The text of an expr~ object means what it means in C (partial)

the PEG grammar as functions on lists of characters with a step bound; the specification is an inductive relation "s writes e at level k" for a table of operators; soundness by induction over the steps, completeness by induction over the length of the text, with the set of texts that can follow an expression; totality of the bound.

Theorems: `Verif/Props/ExprParse.lean`: `parse_total`, `parse_sound`, `parse_complete`, `unambiguous`, `reads_as_c_partial`, `expr_text_correct_partial`, `names_known`, `mixed_comparisons`, `rest_ignored`, `half_expression`, `accepted_then_exception`.

Scope: Character-level PEG parser with white space and backtracking, for every text. Read as in C unless a comparison is the unparenthesised left operand of a comparison; `<=` and `>=` bind less than `<` and `>` (F71), the part of a text after an expression is ignored without an error (F72), drem, $i and $s crash later (F73). Arpeggio itself is modelled from its documentation.

### C64 delwrite~ with vd~ is a variable delay line (partial)

table, write head and message queue of delwrite~ and the arithmetic of vd~ as one state machine over blocks; invariant "the table is the last S samples" with the mirrored sample, by induction over blocks within cycles.

Theorems: `Verif/Props/DelayLine.lean`: `start_ok`, `vd_after_write_partial`, `vd_before_write_partial`, `past_whole`, `lanes_before_head`, `interpolation_at_wrap`, `too_long_reads_ahead`, `first_block_out_of_bounds`, `zero_length_hangs`, `zero_length_start`.

Scope: Every length, vector size, input and delay signal, every block, exact arithmetic, timestamps that do not wrap. Right for delays up to S-N+i in lane i, with fractional delays below one vector excluded. False otherwise: F74 (interpolation in the first block of a cycle), F75 (delays near the length read new samples), F78 (index before the table in the first block), F79 (length 0 hangs).

### C65 delread~ is a fixed delay that can be changed by messages (partial)

the same writer with the read head and queue of delread~; invariant "read head = write position - D modulo S, loop message due when the head reaches the end", by induction over messages and blocks.

Theorems: `Verif/Props/DelayLine.lean`: `delread_delays_partial`, `full_length_is_no_delay`, `too_long_starts_at_zero`, `rounding_depends_on_phase`.

Scope: Every length, input, argument and history of messages, both orders of delread~ and delwrite~. The rounding is to the next multiple of N of the delay or of its integer part, depending on the write position (F80); a delread~ after delwrite~ with the full length has no delay (F76); longer delays start at the write position (F77).

### C66 metro is a metronome (partial)

the objects and connections of metro.pd (transcribed by tools/pdlib.py into a patch of C45) with the semantics of the control objects and a message queue; simulation of a four-line metronome by the patch, transferred to the generated code by control_correct.

Theorems: `Verif/Props/LibMetro.lean`: `metro_partial`, `metro_goes_on`, `metro_regular`, `metro_regular_exists`, `metro_drift`; `Verif/Lib/Metro.lean`: `code_exists`.

Scope: Every generated program of the abstraction metro.pd (compiled as in C45), every history. The right inlet gets single numbers (a list there would also change the conversion factor). The period is truncated to whole samples at every bang (F81), so the metronome runs ahead by the lost fraction each time.

### C67 delay is an alarm clock, pipe a delay line for messages (partial)

as C66, with delay.pd and pipe.pd; specifications: an alarm clock; a list of (time, message) with place for eight.

Theorems: `Verif/Props/LibDelay.lean`: `delay_alarm`, `pipe_line`, `pipe_constant_partial`, `pipe_ninth_lost`; `Verif/Lib/Delay.lean`: `code_exists`; `Verif/Lib/Pipe.lean`: `code_exists`.

Scope: delay: every history. pipe: every history without the message flush; exact delays when at most eight messages are on their way, a ninth is lost (F82; a debug build stops at an assertion). T is truncated to whole samples.

### C68 makenote ends every note it begins (partial)

as C66, with makenote.pd; specification: a player with velocity, duration and up to eight pending ends; corollary by induction over histories: begun notes = notes asked for, ended and pending ends = ends of the notes asked for (as multisets).

Theorems: `Verif/Props/LibMakenote.lean`: `makenote_plays_partial`, `makenote_ends_partial`, `makenote_ninth_hangs`; `Verif/Lib/Makenote.lean`: `code_exists`.

Scope: Every history of single numbers at the three inlets. Every note ends exactly once if at each note fewer than eight are sounding; a ninth note begins but its end is never scheduled (F83). D is truncated to whole samples. A list at the left inlet is not spread over the inlets (not modelled in the specification).

### C69 timer, change, int, moses, spigot, swap, stripnote and until do what they say (partial)

as C66; specification of each object: a function from what it remembers and a message to what it remembers and puts out; change also against List.destutter, stripnote against filter; the loop of until by induction on the number of bangs.

Theorems: `Verif/Props/LibSmall.lean`: `spigot_does`, `moses_does`, `int_does`, `swap_does`, `timer_does`, `change_does`, `change_removes_repetitions`, `stripnote_does`, `stripnote_lists`, `stripnote_stale`; `Verif/Props/LibUntil.lean`: `until_does`.

Scope: Every history of the messages the specification speaks about (for spigot and timer: all messages), exact arithmetic. False in two cases: stripnote forgets the velocity 0 of a list (F84), until ignores a bang (F85). timer in reality reads the time as a float, exact up to 2^24 samples.

### C70 line draws straight lines (partial)

as C66, with line.pd (137 objects); specification: a line generator that adds a slope at every grain; corollary by induction on grains: the closed form of a ramp after any history.

Theorems: `Verif/Props/LibLine.lean`: `line_partial`, `line_goes_on`, `line_ramp`, `line_ramp_exists`, `grain_pos`, `line_late`, `line_overshoot`, `line_negative_grain`; `Verif/Lib/Line.lean`: `code_exists`.

Scope: Every history of the messages T, T r, set v, stop, single numbers at the other inlets. The end of a ramp is rounded up to whole grains, the grain down to whole samples (F86); a ramp interrupted before its last grain goes on from a value that may be beyond its target (F87); a negative grain argument makes ramps endless (F88). Exact arithmetic.

### C71 poly hands out voices (partial)

as C66, with poly.pd and what it uses (~830 objects, looked up in a tree, LibTree.lean): loop invariants for the scans over the three tables (LibPoly*.lean), simulation of a small allocator (PolySpec.lean); the English claims are then proved of that allocator from its output alone (Props/Poly.lean).

Theorems: `Verif/Props/LibPoly.lean`: `poly_partial`; `Verif/Props/Poly.lean`: `code_plays`, `poly_proper`, `free_voice_plays`, `full_ignored`, `full_steals`, `release_ends`, `stop_silences`, `longest_silent`, `steals_oldest`, `releases_oldest`, `stop_forgets`, `clear_forgets`, `overflow_steals_newest`; `Verif/PolySpec.lean`: `oldest_iff`; `Verif/Lib/Poly.lean`: `code_exists`.

Scope: Every number of voices > 0 and every history of the messages p, p v, stop, clear and velocities at the second inlet (others are not dealt with; n = 0, the value without arguments, is not either). `longest'/`oldest' hold until 65535 notes have come out and without stop: the numbers of changes wrap (F89), and stop restarts them without changing those of the voices (F90).

### C72 MIDI objects read and send MIDI messages (partial)

as C66, with the .pd files of the MIDI objects, driven through the receivers (and observed at the sends) that the wrapper uses; `Does` for each of them (Props/LibMidi.lean), then put together with C46 so that the statement is about MIDI messages only (Props/LibMidiHost.lean).

Theorems: `Verif/Props/LibMidi.lean`: `does`, `does`, `does`, `does`, `does`, `does`, `does`, `does`, `does`, `does`, `does`, `does`; `Verif/Props/LibMidiHost.lean`: `notein_hears`, `polytouchin_hears`, `bendin_hears`, `touchin_hears`, `pgmin_hears`, `ctlin_hears`, `noteout_sends`, `ctlout_sends`, `polytouchout_sends`, `bendout_sends`, `touchout_sends`, `pgmout_sends`, `ctlin_bank`, `ctlin_zero`, `notein_channel`, `noteout_list`.

Scope: As stated, for all arguments and histories, except: the messages of a block come at the time of its first event (C46), ports other than 0 for polytouchout (C46), [ctlin] with first argument 0 (F92, F93), lists of three numbers at noteout and its like (F95).

### C73 Parameters of a patch are the parameters of the plugin (partial)

from the arguments of the receive and send objects through grouping, dictionaries and sorting to the lists of the generator (Params.lean), then the plugin as a transition system over the calls of the host and the messages of the patch; invariant `Keeps` by induction over the history (Props/Params.lean).

Theorems: `Verif/Props/Params.lean`: `written_input`, `written_output`, `inputs_are`, `inputs_once`, `input_range`, `inputs_agree`, `not_event`, `outputs_are`, `outputs_once`, `output_range`, `fine`, `init_eq`, `keeps_run`, `input_parameter`, `output_parameter`, `set_sends`, `parameter_info`, `demo_plugin`, `demo_fine`, `same_name`, `same_name_compiles`, `underscore_lost`, `send_last`.

Scope: Proved if no two names differ only by a leading _ before a digit (F97), no name is an input and an output parameter (F96, hvcc does not check it and the C++ does not compile) and no two names have the same hash. Not modelled: @raw, the meta file, how numbers are printed.

### C74 Signal functions of the library compute the functions they are named after (partial)

the .pd files transcribed by tools/pdsig.py to graphs of Reduce (Sig/*.lean, with an equation per object and the existence of a solution); a verified interval checker for polynomials (PolyBound.lean, run by the kernel) and Taylor bounds for the sine; exponentials and logarithms by bounds of log 2 and log 10.

Theorems: `Verif/Props/SigTrig.lean`: `cos_tilde`, `osc_tilde`; `Verif/Props/SigFun.lean`: `wrap_tilde`, `clip_tilde`, `sqrt_tilde`, `mtof_tilde`, `ftom_tilde`, `dbtorms_tilde`, `dbtopow_tilde`, `rmstodb_tilde`, `powtodb_tilde`, `dbtorms_zero`, `realWorld_real`; `Verif/Sig/Mtof.lean`: `signals`; `Verif/Sig/Osc.lean`: `signals`; `Verif/Sig/Cos.lean`: `signals`; `Verif/Sig/Clip.lean`: `signals`.

Scope: The patches are transcribed by tools/pdsig.py and evaluated over the real numbers (C58: the compiled program computes the same graph). Missing: rounding of floats; the values of log2 at 0 and below, so ftom~, rmstodb~ and powtodb~ are proved for positive signals; dbtorms~ and dbtopow~ are not 0 at 0 dB (F99); that the phase of [osc~] is in [0,1] is C29.

### C75 Filters of the library compute their difference equations and are stable (partial)

the .pd files transcribed twice: signal part by tools/pdsig.py, control part by tools/pdlib.py (generated code, C66 machinery); the recursions read off the equations; bounds and limits by induction over time.

Theorems: `Verif/Props/SigFilter.lean`: `coefficients`, `coefficients`, `lop_tilde`, `lop_bounded`, `lop_settles`, `lop_limit`, `lop_tilde_bounded`, `lop_example`, `hip_tilde`, `hip_bounded`, `hip_settles`, `hip_limit`, `hip_coef`, `poleWorld_pole`, `poleWorld_delay`; `Verif/Props/SigBiquadList.lean`: `coefficients`, `biquad_tilde`, `biquad_tilde_bounded`, `biquad_example`; `Verif/Props/SigPole.lean`: `rpole_tilde`, `rzero_tilde`, `rzero_rev_tilde`, `cpole_tilde`, `czero_tilde`, `czero_rev_tilde`, `pole_bounded`; `Verif/Props/SigBiquad.lean`: `coefficients`, `bp_tilde`, `bp_stable`, `bp_bounded`, `bp_negative`, `bp_zero`, `bp_example`, `biquad_bounded`, `biquad_grows`; `Verif/Props/SigVcf.lean`: `coefficients`, `vcf_tilde`, `vcf_bounded`, `vcf_example`.

Scope: The signal part is the transcribed patch over the real numbers, with the pole and delay objects behaving as C25 proves their code does; the control part is the generated message code of the same patch. [bp~] is bounded for steady frequencies above 0; bp_negative and bp_zero are findings (F107). Missing: rounding of floats; the change of a coefficient is seen at the block it arrives in, as C58's worlds have it.

### C76 phasor~ and osc~ have the frequency they are told (partial)

HvSignalPhasor: conversion of frequencies and phases to 32-bit words transcribed (undefined conversions are none); the phase word of C29 compared with the exact phase by induction over samples; osc~ through the cosine approximation of C74.

Theorems: `Verif/Props/PhasorFreq.lean`: `phasor_turns_scalar`, `phasor_turns_simd`, `turns_constant`, `turns_exists`, `phasor_signal_sse`, `phasor_signal_neon`, `phasor_signal_scalar`, `osc_turns`, `osc_frequency`, `wrapPhase_done`, `whole_phase_undefined`, `high_frequency_undefined`.

Scope: For SSE, NEON and scalar code, over exact arithmetic for the products before the conversion to integer. Missing: rounding of the float products; AVX (its phase is a float that halves instead of wrapping, F33). Conversions that are undefined in C are undefined here too: frequencies of at least half the sample rate (F101) and whole positive phases; the theorems exclude them and whole_phase_undefined, high_frequency_undefined show they are excluded rightly.

### C77 noise~ is the stated linear congruential sequence (proved)

noise~.pd: the variable and its multiplication over 32-bit words, for every width; closed form by induction; the period by lifting the exponent at 2.

Theorems: `Verif/Props/Noise.lean`: `noise_value`, `noise_range`, `noise_period`, `noise_progression`, `noise_seed_zero`.

Scope: The integer part is exact; the last product is over the rationals. In the scalar build the product of ints overflows, which C leaves undefined; here it wraps. noise_progression and noise_seed_zero are findings (F102).

### C78 Table readers stay in the table and interpolate (partial)

tabread~.pd, tabread4~.pd, tabosc4~.pd transcribed by tools/pdsig.py; equations of the graph solved at the outlet.

Theorems: `Verif/Props/SigTab.lean`: `tabread4_indices`, `tabread4_tilde`, `tabread4_entry`, `tabread4_end`, `tabread4_not_cubic`, `tabread4_stale`, `tabread_tilde_cut`, `tabread_tilde_round`, `tabosc4_tilde`, `tabosc4_guard`, `lerp_int`, `lerp_between`, `lerp_line`, `tabWorld_tab4`; `Verif/Props/SigTab4.lean`: `told`, `told`, `told`, `roundUp_spec`, `tabread4_plays`, `tabread4_pad`, `tabread_plays_cut`, `tabread_plays_round`, `tabosc4_plays`, `tabread4_example`, `tabread_example`, `tabosc4_example`.

Scope: The patches transcribed by tools/pdsig.py over the real numbers; the readers behave as C49 proves of their code wherever the index is in the table. The generated code that asks for the size and passes names on is run beside the signals (told, plays), for every history of `set` messages with names of tables and other messages. Missing: rounding of floats; `set` with an unknown name (it faults, F24); tables resized in between (tabread4_stale). tabread4_end, tabread4_not_cubic, tabread4_stale, tabread4_pad, tabosc4_guard are findings (F103, F104, F109).

### C79 The small control objects of the Pd library compute their functions (partial)

the .pd files transcribed by tools/pdlib.py; every library function a parameter of the context with a relative error; simulation of the patch by a function of the last numbers (LibSim), for every history.

Theorems: `Verif/Props/LibMath.lean`: `accurate_exists`, `mtof_does`, `mtof_near`, `ftom_does`, `ftom_near`, `dbtorms_does`, `dbtorms_near`, `dbtopow_does`, `dbtopow_near`, `rmstodb_does`, `rmstodb_near`, `powtodb_does`, `powtodb_near`, `wrap_does`, `exp_does`, `exp_near`, `sqrt_does`, `sqrt_near`, `clip_does`, `div_does`, `div_negative`, `tgl_does`, `tgl_forgets`; `Verif/Props/LibTab.lean`: `tabread_does`, `clipped`.

Scope: The patches transcribed by tools/pdlib.py, compiled (Code) and run as C66 describes. Missing: rounding of the float products and sums (numbers are rational; the library functions have a relative error); for some objects only single-number messages are covered, as the history predicates Single, Only, Fits say. div_negative and tgl_forgets are findings (F105).

### C80 The stability check of the biquad accepts exactly the stable filters (partial)

the check transcribed over the reals with a case for 0/0; poles as complex roots; Vieta.

Theorems: `Verif/Props/BiquadCheck.lean`: `check_right`, `check_wrong`, `check_initial`, `stable_triangle`.

Scope: Over the real numbers, with C's comparisons false for the quotient 0/0. The full statement is false for a2 = 0, a1 <= 0 (check_wrong), in particular for the initial coefficients (check_initial): F106. Missing: rounding.

### C81 Cables whose type is left open get the only consistent type, and operators hear all their inlets (partial)

the depth-first pass over numbered cables with its set of visited objects; invariant: every type given is right; uniqueness by a rank. The Pd step as a list of cables with new var objects, against the signal semantics of C58.

Theorems: `Verif/Props/CableTypes.lean`: `resolved_right`, `reached_all`, `right_unique`, `easy_resolves`, `chain_resolves`, `diamond_fails`, `order_decides`, `loop_stays_open`, `right_inlet_ignored`; `Verif/Props/PdBinop.lean`: `operator_hears`, `others_stay`, `gain_hears`.

Scope: Proved for every graph in which the pass reports no error; that it reports none is proved when every object has declared outlets or a typed left inlet (easy_resolves). It is false in general (F108): diamond_fails, order_decides, loop_stays_open. Missing: subgraphs in the type pass; a right inlet's signal does not count (right_inlet_ignored).

### C82 The patch hears and plays the host's samples, in place and in blocks of any size (partial)

process as a loop over vectors on one memory with addresses of the buffers; invariant of the loop: the samples behind the current vector are untouched. Sessions as sequences of calls, by induction. The callers of the targets as functions of the buffers.

Theorems: `Verif/Props/Host.lean`: `process_spec`, `in_place`, `place_does_not_matter`, `leftover_untouched`, `short_call`, `block_size_independent`, `clock_late`, `session_exists`, `pd_wiring`, `wwise_mono_right`, `wwise_bus`, `owl_stereo`, `web_connected`, `web_stuck`, `web_never`.

Scope: The signal code is a parameter (C31, C45); buffers are addresses in one memory. Proved for whole vectors; frames beyond the last whole vector are neither read nor written and the clock loses them (F110: leftover_untouched, short_call, clock_late). False of Wwise with a stereo patch on a mono bus (F111) and of disconnected inputs in the web target (F112: web_stuck, web_never). Alignment of the buffers is assumed.

### C83 Messages cross between a host and the patch unchanged (partial)

byte-level model of the calls on the memory of C13-C15; building a message in order by induction on its elements, then the copy theorem of C13 for the record; the hooks as functions of the memory, equal to a specification on lists of elements.

Theorems: `Verif/Props/HostMsg.lean`: `send_message`, `default_send_hook`, `build`, `send_float`, `send_bang`, `send_symbol`, `send_v`, `send_v_empty`, `send_v_unknown_letter`, `on_message`, `on_message_other`, `send_hook`, `echo`, `delivered`, `next_sent`, `next_sent_refuses`, `next_sent_reads_behind`, `next_sent_dangles`, `web_hook`, `web_hook_loses`, `pd_example`, `pd_example_back`, `pd_drops_bang`.

Scope: Bytes of one memory, 64-bit layout; the queue gives an address (its order and its bytes: C11, C12). Proved for all messages below 64 kB. Not true of the code, and so proved as counterexamples: sendMessageToReceiverV with another letter sends what was on the stack (F113), getNextSentMessage copies 8 bytes too many, refuses memory that is large enough and leaves the symbols pointing into the queue (F114), a list with a bang or a hash is not given to Pd (F115), the browser gets only the first number (F116).

### C84 [print] shows the elements of the message, separated by spaces (partial)

byte-level model of msg_toString and the hooks; invariant of the second loop: the bytes before the position are the texts so far with a space after each.

Theorems: `Verif/Props/Print.lean`: `to_string`, `owl_bytes`, `owl_print`, `owl_unterminated`, `dpf_print`, `dpf_junk`, `print_example`, `hook_example`.

Scope: The text of %g is a parameter. False of the hooks for long texts: OWL and Daisy do not terminate the text (F117: owl_unterminated); DPF overwrites the label and shows bytes of the stack (F118: dpf_print, dpf_junk).

### C85 [tabplay~] plays the part of the table that was asked for (partial)

the patch compiled as in C66 sends to probes in place of its player; simulation by a specification; the messages then go to the model of HvSignalTabread, whose sequence of vectors is computed by induction; the table of the player is an invariant of all histories.

Theorems: `Verif/Props/LibTabplay.lean`: `tabplay_does`, `tabplay_starts`, `tabplay_plays`, `tabplay_plays_over`, `tabplay_overreads`, `tabplay_stops`, `tabplay_sets`, `tabplay_live`, `ex_linked`.

Scope: Numbers are rationals (as in C66); the graph of the patch is generated from tabplay~.pd by tools/pdlib.py, its generated code by the control compiler of C45. The messages go to the model of the player (C49). Proved for lengths inside the table; beyond it the code sends no bang, and with an array that has contents in the patch it reads behind its memory (F120). That the bang of the player reaches the right outlet is a connection in the patch and not modelled.

### C86 [tabwrite~] records its input into the table and stops at its end (partial)

the patch compiled as in C66 simulates a desk that sends to the recorder and has at most one stop in the queue; the messages and vectors then go to the model of HvSignalTabwrite: invariant head + time of the stop < time now + size + a vector, which gives the safety for all histories.

Theorems: `Verif/Props/LibTabwriteS.lean`: `tabwrite_does`, `tabwrite_safe`, `tabwrite_records`, `set_overruns`, `resized_overruns`, `data_overruns`, `ex_linked`, `ex_live`.

Scope: Numbers are rationals (as in C66), so the time of the stop is exact; floats may round it by samples. The graph is generated from tabwrite~.pd by tools/pdlib.py. That the messages of the samples of a vector are dealt with before the vector is C08. False of the code, and so excluded by hypotheses and proved as counterexamples: a smaller table chosen while recording, an array made smaller after loading, arrays with contents in the patch (F122).

### C87 the generated program plays the signals of the patch, from the operators of the patch to the output channels (partial)

a typing of the connections is carried through remap_send_receive and reduce as an invariant (ReadyT), so that the reduced graph meets the hypotheses of the later passes; their correctness gives one block, induction over the blocks with the variables and the inputs of all objects so far gives all of them; what is read from a variable is read_is_late of C59. The write of a variable is a leaf that feeds nothing, so that all that leads to it is before it in the process list (leaf_last): reads on a feedback path are late, which makes (block, latest read before, rank of the connections) a measure by which the signals exist.

Theorems: `Verif/Props/Whole.lean`: `patch_plays_partial`, `patch_has_signals`, `reads_first`, `reduced_signals`; `Verif/Props/WholeExample.lean`: `compilable`, `sends_first`, `plays`; `Verif/Props/WholeEcho.lean`: `compilable`, `mailed`, `plays`.

Scope: Composes C59 (send~/receive~), C58 (reduce) and C30-C34 (cascade, fma, order, buffers) and runs the process list block after block, with the variables and the state of every object; feedback through send~/receive~ included: the read on a feedback path is late, and there always are signals (example: an echo). Missing: names under which only messages or nothing is sent, subgraphs (the later passes for trees are in C30-C34), multiplication by the constant 0 (F of C58), loops that contain a signal. The channels of adc~ and dac~ are given as separate objects; numbers are those of a field (no rounding).

### C88 number boxes, sliders, buttons, float and symbol (proved)

the compiled library patch simulates a small state machine (Reacts), one message at a time; box_bang by induction over the history; what $1 of floatatom.pd is: the model of dollar arguments (C36).

Theorems: `Verif/Props/LibBoxes.lean`: `box_bang`, `box_holds`, `box_does`, `box_does`, `box_does`, `box_does`, `box_does`, `bng_does`, `abs_does`, `atom_starts`, `box_history`.

Scope: For the generated code of the library patches (transcribed by tools/pdlib.py), all histories of non-empty messages; numbers without rounding. The library files of nbx, hsl, vsl, hradio, vradio are the same. Findings F123, F124.

### C89 unconnected inlets of subpatches are forgotten without a change for anybody (proved)

the recursive pass is shown to be a loop over the graphs in preorder; every property kept by one removal is kept by the pass; an inlet is treated after the graph around it, hence no later removal changes what reaches it, and induction along the preorder gives exactly the inlets that something reaches.

Theorems: `Verif/Props/Prune.lean`: `pruned_right`, `prune_plays`, `cleared`, `forgotten`, `formed`, `pruned`, `fed`.

Scope: The connections of all graphs are one list, the graphs a tree. What the objects do with an inlet that has become unconnected is not part of the claim: an argument takes over (F125).

### C90 the canvases of a Pd file are read with their boxes, cables and arguments as Pd writes them (proved)

a patch is a tree, its file is what Pd writes for it; that reading is the inverse of writing is proved by mutual induction over boxes and canvases with an arbitrary rest of the file, for the canvases and for the pass that collects the arguments (invariant: the position in the dictionary is 0 exactly in the outermost canvas).

Theorems: `Verif/Props/PdFile.lean`: `file_read`, `numbered`, `argument_of_a_sibling`, `arguments_lost`, `nested_alike`, `broken_line`, `ok`, `read`.

Scope: Statements are given (C42 cuts the text). The arguments of subpatches are not claimed: they go astray (F126). What is added after the last statement is C55, the contents of arrays C43, which file an object is read from C48.

### C91 [samplerate~], [loadbang], [bang~], [midirealtimein] and [midiin] tell what happens in the system (proved)

the library patches are transcribed by tools/pdlib.py (as for C53, C72, C88) and the compiled program is simulated by the machine of the specification; the bangs of process are followed through two calls of the scheduler model with the invariant SI of C08.

Theorems: `Verif/Props/LibSystem.lean`: `does`, `does`, `does`, `next_call`, `every_call`, `does`, `does`, `asked`, `three_calls`, `clock`.

Scope: Bang.next_call speaks about the scheduler (C01, C08): a call shorter than one SIMD block delivers nothing.

### C92 [sin], [cos], [tan], [atan], [log] compute functions of numbers and [tabwrite] writes into its array (proved)

library patches transcribed by tools/pdlib.py; the compiled program is simulated by the machine of the specification (as for C53, C88).

Theorems: `Verif/Props/LibFun.lean`: `does`, `does`, `does`, `does`, `does`, `does`, `size`, `put`, `beside`, `logs`, `writes`.

Scope: The functions of the C library are parameters. Not covered: places between the length of a table and its memory (rounded up to the SIMD width), and set messages (C18 has both for the C function).

### C93 the canvas that was read is the canvas that is compiled (proved)

the file between the two programs is a list of named objects and of cables by name; invariant: after some of the cables the graph of the compiler is the specified graph with these cables, by induction over the cables.

Theorems: `Verif/Props/Handover.lean`: `canvas_crosses`, `outlet_order`, `same_name`, `to_itself`, `ok`, `crosses`.

Scope: One canvas: the contents of a subpatch cross in the same way. Names are drawn at random; what happens when two are the same is same_name, a box that is connected to itself is to_itself (see F60).

### C94 messages to a signal box get there, all of them, and in the order of the patch (partial)

the validation of PdLibSignalGraph and PdBinopObject as functions on the list of cables; the list afterwards in closed form (cables that stay, then for every inlet its sig~ with the cables moved to it), by induction over the boxes; from it the order in which the messages of any outlet go out. What the boxes hear: the steps of C81.

Theorems: `Verif/Props/PdLibSig.lean`: `box_hears`, `others_keep`, `same_goals`, `order_after_partial`, `order_stays`, `meets`, `hears`, `order_changes`.

Scope: Missing is the order of the cables, which is false: order_after_partial says for every canvas and outlet what it is afterwards (first the inlets that need no sig~, then the others by boxes), order_stays when it is that of the patch for certain, Example.order_changes a patch that ends with another number (F135). The numbers that are held are those of the order of sending in the compiled graph.

### C95 [trigger] sends what its arguments say, from right to left (partial)

the arguments of [trigger] through PdTriggerObject and HLangSequence to casts, induction over the arguments; the outputs with the casts of HvControlCast.c as the meaning of a sequence in C45, induction over the outlets.

Theorems: `Verif/Props/Trigger.lean`: `outlets`, `numbers`, `bangs_partial`, `meets`, `sends`, `refused`, `silent`.

Scope: Missing is f for a bang, which is false: the outlet is silent where Pd sends 0 (bangs_partial says what is sent, Example.silent is an instance, F136). What the box sends is the meaning of a sequence in C45, which the generated code implements in every patch. Which words Python takes for numbers is a parameter; numbers are rationals.

### C96 [table name n] is an array with n places (partial)

the reading of the arguments as a function on the list of texts, followed by the functions of C43 and C17 (compiler and HvTable.c); case distinction over the arguments, contents by the specification of hTable_init.

Theorems: `Verif/Props/PdTable.lean`: `sized_partial`, `found_by_host`, `name_needed`, `no_size`, `hundred`, `nothing`, `negative`.

Scope: Missing are the tables without a size, for which the property is false: they have no place at all (no_size, for every such list of arguments), and a negative size gives a table without memory (Example.negative, F137). Which texts Python's int accepts is a parameter; sizes are below 2^30.

### C97 the channels of a program are those of the patch (proved)

patches as trees of graphs; the recursive sets of channels as functions on them, membership by mutual induction over graphs and lists of graphs, then the maximum.

Theorems: `Verif/Props/Channels.lean`: `inputs_declared`, `outputs_declared`, `inputs_number`, `outputs_number`, `buffers_differ`, `four`, `meets`, `zero`.

Scope: Channels are counted from 1; a channel 0 or less is accepted and gives a program that does not compile (Example.zero, F138). What is played on the channels is C82 and C87.

### C98 an error anywhere in a patch stops the compilation (proved)

a patch is a tree of boxes with lists of messages; induction over the tree, against an inductive specification of "was added somewhere".

Theorems: `Verif/Props/PdNotices.lean`: `stops_iff`, `reported_iff`, `reported_added`, `exception_alone`, `warned_iff`, `validated_iff`, `validated_with_error`.

Scope: The name and place that are put before each text are left out. validated_iff and validated_with_error: the other check, that of the parser, sees the errors of the root only (F139).

### C99 the exit status tells whether something failed (proved)

the run as a function from the answers of the stages to the dictionary of results and the exit status; the dictionary is a list with insertion, all keys are shown to be different, then by cases.

Theorems: `Verif/Props/Stages.lean`: `exit_iff`, `compile_eq`, `exit_zero_iff`, `generator_runs_iff`, `unknown_generator_ignored`, `missing_module_ignored`, `conflicts_stop_nothing`, `exWorld_honest`.

Scope: The stages are what they answer; exceptions that nobody catches are not modelled. Generators that are not known and modules that are not there are left out without an error (F140), conflicts of names and errors of the GUI reader stop nothing (F141). exit_iff needs no hypothesis on the answers.

## Findings: where the code does not do what a user relies on

Each is a theorem about the model (a negation with a witness, or an exact description of what the code does instead), except those
marked (read), which were only found by reading.

| | Code | What happens | Theorem |
|--|--|--|--|
| F1 | HvLightPipe.c | messages whose size is no multiple of 4 are written over or lost | `unaligned_loses_messages` |
| F2 | HvLightPipe.c | a drained pipe refuses messages that would fit an empty one | `drained_pipe_refuses` |
| F3 | HvMessageQueue.c, mq_clearAfter | the kept part keeps a pointer to the freed part | `clearAfter_breaks_queue` |
| F4 | Heavy_NAME.cpp, process | a handler that schedules before the message being dispatched loses a message | `early_insert_loses_message` |
| F5 | HvMessage.c, msg_initWithSymbol | strlen is counted twice; the pool then leaks the message | `initWithSymbol_overcounts`, `overcounted_message_leaks` |
| F6 | HvControlSlice.c | negative start reads out of bounds; slices with symbols are too small to be copied | `slice_of_symbol_cannot_be_copied` |
| F7 | HvUtils.c / HeavyLangObject.get_hash | compiler and runtime hash "bang" and non-ASCII names differently | `hash_bang_differs`, `hash_nonascii_differs` |
| F8 | HvTable.c, hTable_initWithData | less memory than the rounded size | `initWithData_overrun` |
| F9 | HvTable.c, hTable_resize | the length is not updated when the rounded size stays the same | `resize_keeps_stale_length` |
| F10 | HvControlTabwrite.c | a stored index is used after the table shrank | `tabwrite_stale_index_faults` |
| F11 | HvControlRandom.c | seed -5, or the message `seed 0`, stops the generator | `random_stuck` |
| F12 | HvControlBinop.c | `mod` with 0<\|k\|<1 divides by zero | `mod_fraction_divides_by_zero` |
| F13 | HvControlPack.c | a symbol on a right inlet fails an assertion | `pack_symbol_faults` |
| F14 | HvSignalSamphold.h | NEON: missing `break`s | theorems of C26 |
| F15 | Heavy_NAME.cpp | AVX: interleaved stereo output in the order 0 1 4 5 2 3 6 7 | theorems of C27 |
| F16 | HvSignalLine.{h,c} | retriggered ramps start up to N+1 samples ahead; the counter wraps after 2^31 samples | theorems of C28 |
| F17 | expr_c_writer.py | releasing Bf10 releases Bf1; `expr~ $v1` writes nothing | theorems of C39 |
| F18 | PdParser.py | arrays saved with too few or too many values get a wrong size | `array_too_short`, `array_too_long` |
| F19 | PdParser.py | mutual recursion of abstractions ends only at Python's recursion limit, after exponential work | `mutual_recursion_doubles` |
| F20 | PdReceiveObject.py | priorities collide beyond 1000 receivers | `crowded_order` |
| F21 | c2dpf midiInput.cpp | all events of a block get the time of the first; `midiin` gets wrong bytes | `midi_in_wrong_time`, `midiin_diagonal` |
| F22 | Heavy_NAME.cpp | messages across the wrap of the 32-bit sample clock are stranded | `clock_wrap_strands_message` |
| F23 | HvUtils.h | Windows variant of hv_min_max_log2 differs | example in MessagePool |
| F24 | HvSignalTabread.c | `tabplay~` of an unknown table faults | `playback_unknown_table_faults` |
| F25 | HvSignalTabread.h | the bounds assertion wraps | `looping_read_wraps` |
| F26 | HvSignalTabwrite.h | `tabwrite~` never stops | `recording_overruns` |
| F27 | HvControlDelay.c | flush may leave the queue out of order | `flush_breaks_queue_order` |
| F28 | HvControlDelay.c | a flushed message that comes straight back escapes clear | `flush_feedback_escapes_clear` |
| F29 | PdRouteObject etc. | -0.0 and a lone `symbol` | `route_misses_negative_zero`, `route_symbol_faults` |
| F30 | HvControlCast.c | a stored symbol is dropped by the symbol cast | `stored_symbol_lost_by_cast` |
| F31 | HvSignalDel1.h, HvSignalRPole.h | AVX: every eighth sample is nine samples late | theorems of C24, C25 |
| F32-F36 | HvSignalPhasor.{h,c} | scalar phasor one step behind; AVX phase halves or hangs; phase 1.0 undefined | theorems of C29 |
| F37 | HvSignalCPole.h | AVX: imaginary output never written | theorems of C51 |
| F38 | HvSignalSamphold.h | a trigger of 1.0 (instead of a comparison mask) mixes bits | theorems of C26 |
| F39 | HeavyIrObject.get_parent_order | control feedback reverses the order of signal objects | theorems of C30 |
| F40 | PdReceiveObject.py | an explicit priority 0 is ignored | theorems of C35 |
| F42 | expr_c_writer.py | integer constants are assigned to float vectors (read) | - |
| F43 | HeavyGraph.py | static tables are invisible outside their graph | theorems of C37 |
| F44 | ControlSwitchcase.py | every name has a number that is taken for it | `number_taken_for_name` |
| F45 | PdParser.py | trailing backslash, two statements on one line | theorems of C42 |
| F46 | PdMessageObject.py | a box with only a remote message treats it as local | `remote_only_is_local` |
| F47 | ControlMessage.py | `$0` in a message box is undefined behaviour; `nan`, `inf` words do not compile | `dollar_zero_undefined` |
| F48 | PdParser.py | remote messages follow outlet 0 whatever outlet is connected; nothing works in subpatches | `remote_exactly`, `subpatch_delivers_nothing` |
| F49-F50 | c2dpf midiOutput.cpp | `midiout` starts from an uninitialised counter, groups bytes by four | `midiout_uninitialised`, `midiout_mixes` |
| F51-F52 | c2js hv_worklet.js | `midiin` never gets status bytes; two-byte messages only on channel 0 | `js_midiin_no_status`, `js_midiout_program` |
| F53 | c2dpf hostTransportEvents.cpp | clock not aligned with the host's beats; negative tempo hangs | `first_tick_at_once`, `negative_tempo_hangs` |
| F54 | HeavyGraph.py 787-792, 839 | a subpatch that only passes a signal from inlet~ to outlet~ is skipped: its outlet is silent | `wire_is_silent` |
| F55 | HvSignalConvolution.c | an input ring longer than the table adds taps beyond the table, now and then, and reads beyond it | `conv_extra_tap`, `conv_reads_beyond` |
| F56 | HvSignalConvolution.c | a smaller size leaves the head outside the ring (write out of bounds); a longer table fails an assertion; AVX is not implemented | `conv_shrink_overruns`, `conv_longer_table_asserts` |
| F57 | HvSignalEnvelope.c | `memcpy` of overlapping memory when the period is less than half the window | `env_overlap_undefined` |
| F58 | HvSignalEnvelope.c | a window of 1 or 2 samples divides by zero | `env_tiny_window` |
| F59 | HLangBinop.py 78-83, 139-141 | [*~ 0] is removed with its connections; an operator behind it that comes later in the file then has no left inlet and is removed too: [*~ 0] -> [+~ 5] gives silence instead of 5 | `zero_kills_neighbour` |
| F60 | HeavyGraph.py 144-168, HeavyLangObject.py 244-267 | a control object connected to itself makes the compiler raise an exception | `loop_raises` |
| F61 | HLangUnop.py 37, 70-82 | (read) [asinh~]: the dictionary lists `__asin~f`, so the assertion fails; the cast objects connect to an object that is not in the graph | - |
| F62 | HLangReceive.py 46-49, HLangBinop.py | a [r~ x] nobody sends to is removed; the [+~] behind it then has no left inlet and is removed too, with the signal at its right inlet | `orphan_mutes` |
| F63 | HeavyGraph.py 527-603, HvSignalVar.h | [s~]/[r~] delay by 0 or HV_N_SIMD samples: the same patch differs between scalar, SSE, NEON and AVX builds | `read_is_late`, `width_matters` |
| F64 | HvLightPipe.c 65-72, 120-129 | no load barrier: on ARM the payload may be read before the length, and `readHead` be published before the payload is read | `early_loads_break` |
| F65 | HvMath.h 611-681, expr_c_writer.py 190 | a comparison that holds is `1.0` in the scalar build and an all-ones NaN in vector builds: `[expr~ $v1 > 0]` gives NaN; `!=` of a NaN is false on AVX only | `cmp_value_differs`, `neq_nan_differs` |
| F66 | HvMath.h 779-780 | `__hv_fms_f` on ARMv8 is `vfmsq_f32(bIn2, bIn0, bIn1)` = bIn2 - bIn0*bIn1: every `[*~]` into the left inlet of `[-~]` changes sign | `fms_armv8_negated` |
| F67 | HvMath.h 467-477, libs/pd/tabread~.pd | `__cast~fi` rounds to nearest on SSE/AVX and truncates elsewhere: `[tabread~]` (no floor before the cast) reads the next entry for fractions above one half | `cast_rounds` |
| F68 | HvMath.h 75-103 | `__hv_log2_f` of SSE and NEON is e + m + 0.043 (log2 1 = 0.043; half a semitone in `[ftom~]`); AVX has none | `log2_power` |
| F69 | HvMath.h 120-262, 336-346, 480-505, 713-723, 789-1154 | sin, tan, log, if, % and about thirty more functions of `[expr~]` are `hv_assert(0)` in all vector builds | `onlyScalar_vector` |
| F70 | HvSignalVar.c 21-46 | a list `k step` sent to `[sig~]` is a sawtooth with the period of the vector in SIMD builds and the constant `k` in scalar builds | `sig_list_is_ramp` |
| F71 | expr_arpeggio_grammar.py 36-37 | `<=` and `>=` bind less than `<` and `>`: `1>=2<3` is `1>=(2<3)`, in C and Pd `(1>=2)<3` | `mixed_comparisons` |
| F72 | expr_arpeggio_grammar.py 28 (F41) | no end of input: `[expr~ $v1 + .5]` is compiled as `$v1`, `2 3` as `2`; numbers like `.5`, `3.`, `1e3` are not known | `rest_ignored`, `half_expression` |
| F73 | expr_arpeggio_grammar.py 44, 67 | `drem(...)`, `$i1`, `$s1` are accepted by the grammar and end in a KeyError or failed assertion | `accepted_then_exception` |
| F74 | libs/pd/delwrite~.pd, vd~.pd | the first sample of the table is mirrored at its end one vector after it has been written: a `vd~` after `delwrite~` with a fractional delay below N interpolates with a sample S too old once per cycle (a click), and everywhere in the first cycle around sample 0 | `interpolation_at_wrap` |
| F75 | libs/pd/vd~.pd | the delay is limited to S-1 although lane i may use at most S-N+i: longer delays read samples that have just been written | `too_long_reads_ahead` |
| F76 | libs/pd/delread~.pd | a `delread~` running after `delwrite~` with the full length as delay has no delay at all | `full_length_is_no_delay` |
| F77 | libs/pd/delread~.pd, HvSignalTabread.c | a delay longer than the table makes the position wrap around 2^32; the head goes to 0 and the delay is whatever the write position is | `too_long_starts_at_zero` |
| F78 | libs/pd/vd~.pd | a `vd~` running before `delwrite~` with a delay near the length reads before the table in the very first block | `first_block_out_of_bounds` |
| F79 | libs/pd/delwrite~.pd | `delwrite~ name 0` schedules its wrap message after 0 samples: the message loop of the first block never ends | `zero_length_hangs`, `zero_length_start` |
| F80 | libs/pd/delread~.pd, HvSignalTabread.c 60-75 | delays that are not whole are rounded up or down depending on the write position when they are set | `rounding_depends_on_phase` |
| F81 | libs/pd/metro.pd, HvControlDelay.c 76-82 | the period is truncated to whole samples, at every bang: the error adds up (`metro 125` at 44100 Hz runs ahead by 5.4 ms every minute) | `metro_drift` |
| F82 | libs/pd/pipe.pd, HvControlDelay.h 20 | a `pipe` with eight messages on their way loses the ninth without notice | `pipe_ninth_lost` |
| F83 | libs/pd/makenote.pd | with eight notes sounding, a ninth `makenote` note begins and never ends | `makenote_ninth_hangs` |
| F84 | libs/pd/stripnote.pd | the velocity 0 of a list `p 0` is not remembered: a later lone pitch passes with an older velocity | `stripnote_stale` |
| F85 | libs/pd/until.pd | a bang, which in Pd starts the loop, is ignored | `until_does` |
| F86 | libs/pd/line.pd | a ramp ends at the first multiple of the grain that is not before its end: 50 ms with a grain of 20 ms take 60 ms | `line_late` |
| F87 | libs/pd/line.pd | a new target between the last two grains: the line goes on from a value beyond the old target | `line_overshoot` |
| F88 | libs/pd/line.pd | a negative grain argument is not replaced by 20 (one from the inlet is): ramps never end | `line_negative_grain` |
| F89 | libs/pd/poly.pd | changes of voices are numbered modulo 65535: once in 65535 changes the newest note is stolen instead of the oldest | `overflow_steals_newest` |
| F90 | libs/pd/poly.pd | `stop` restarts the numbers but leaves those of the voices: afterwards a voice just released is used again before ones that have been silent for longer (Pd does not restart them) | `stop_forgets` |
| F91 | libs/pd/poly.pd | `clear` ends nothing that sounds: voices are started twice, and notes can no longer be ended (as in Pd) | `clear_forgets` |
| F92 | libs/pd/ctlin.pd | `[ctlin]` without arguments reports controller 0 (bank select) as the controller whose number is the channel | `ctlin_bank` |
| F93 | libs/pd/ctlin.pd | `[ctlin 0 b]` looks neither at the controller nor at the channel (a comment in the patch says that the case is buggy) | `ctlin_zero` |
| F94 | libs/pd/notein.pd, polytouchin.pd | with a channel as argument the third outlet still reports the channels of notes that are not let through | `notein_channel` |
| F95 | libs/pd/noteout.pd, ctlout.pd, polytouchout.pd | the third element of a list at the first inlet is taken as a channel counted from 0 (the third inlet counts from 1, as Pd does for both) | `noteout_list` |
| F96 | compiler.py, c2dpf/templates/HeavyDPF.hpp:17-26 | a name used as input and as output parameter passes all checks, but `enum Parameters` then has the enumerator twice (the C++ does not compile) | `same_name`, `same_name_compiles` |
| F97 | HeavyGraph.py:967 | of the parameters `1a` and `_1a` one is lost without an error | `underscore_lost` |
| F98 | compiler.py:142-145 | sends of one name with different ranges: the last one is taken silently (a comment says the first; for receivers it is an error) | `send_last` |
| F99 | libs/pd/dbtorms~.pd, dbtopow~.pd | 0 dB and less give 1e-5 (1e-10) and less, not 0 as [dbtorms], [dbtopow] and Pd do | `dbtorms_zero` |
| F100 | libs/pd/czero_rev~.pd | computes x[n-1] - a·x[n]; Pd's object takes the conjugate of a (Pd's documentation from memory, not available here), so complex coefficients give another filter | `czero_rev_tilde` |
| F101 | HvSignalPhasor.c, sPhasor_k_updateFrequency | a frequency of half the sample rate or more makes the conversion of a float of 2^31 or more to `int32_t`, undefined in C; a phase message of very large absolute value never leaves the wrapping loops (p + 1 = p in floats; read, not proved) | `high_frequency_undefined` |
| F102 | libs/pd/noise~.pd | the samples of one vector are in arithmetic progression modulo 2^32, so every third sample is determined by the two before it, not white; seed 0 silences lane 0, and the whole object in the scalar build | `noise_progression`, `noise_seed_zero` |
| F103 | libs/pd/tabread4~.pd | interpolates linearly, not with four points; the last entry is never reached; the size is asked for only at start and `set`, so after the table shrank an index is outside of it | `tabread4_not_cubic`, `tabread4_end`, `tabread4_stale` |
| F104 | libs/pd/tabosc4~.pd | ignores the guard points of Pd's tables: starts at the guard point and has a turn of p+1 instead of p points | `tabosc4_guard` |
| F105 | libs/pd/div.pd, tgl.pd, tabread.pd | [div] rounds towards zero, Pd's down (-7 by 2); [tgl] forgets the number it was set to and goes back to 1; [tabread] after `[set name(` reads the new table but restricts the index with the length of the old one (read, not proved) | `div_negative`, `tgl_forgets` |
| F106 | HvSignalBiquad.c, debug check | computes 0/0 for a2 = 0, a1 <= 0 and reports an unstable filter, also for the initial coefficients | `check_wrong`, `check_initial` |
| F107 | libs/pd/bp~.pd | a negative frequency makes the filter unstable, the frequency 0 lets it grow linearly; Pd takes 10 Hz for both | `bp_negative`, `bp_zero` |
| F108 | HeavyLangObject.py:353-375 | open cables are resolved depth-first before all inputs of an object are known: two open operators at one inlet of a third are an error although a typing exists; whether a patch compiles depends on the order of its objects; loops without a source are never resolved; a signal at the right inlet does not make the outlet a signal | `diamond_fails`, `order_decides`, `loop_stays_open`, `right_inlet_ignored` |
| F109 | libs/pd/tabread~.pd, tabread4~.pd, tabosc4~.pd | ask for the `size` of the table, which is its length rounded up to the SIMD width: in SIMD builds positions behind the end read zeros instead of the last entries, and a turn of [tabosc4~] contains them; the sound depends on the build | `tabread4_pad`, `tabosc4_plays` |
| F110 | Heavy_NAME.cpp:188, HeavyDPF.cpp:218 and the other callers | a block that is not a multiple of the SIMD width is processed only up to the last whole vector; the callers ignore the returned number: the rest of the output keeps old samples (in place: the input) and the clock of the patch loses the rest of every block (4% at 100 frames with AVX); blocks shorter than a vector do nothing | `leftover_untouched`, `short_call`, `clock_late` |
| F111 | c2wwise {{name}}{{plugin_type}}.cpp:265-270 | a stereo patch on a mono bus gets the same buffer for both outputs: the left output is lost | `wwise_mono_right` |
| F112 | hv_worklet.js:57-69 | `inputBuffer.set(0)` does not clear the buffer: after the input is disconnected the patch hears the last block again and again; a missing channel likewise, or uninitialised memory | `web_stuck`, `web_never` |
| F113 | HeavyContext.cpp:99-107 | `sendMessageToReceiverV` with a format letter other than `b f h s` leaves the element uninitialised and sends it | `send_v_unknown_letter` |
| F114 | HeavyContext.cpp:196-219 | `getNextSentMessage` compares and copies the size of the record (message + 8): memory that is large enough is refused, 8 bytes behind the record are read, and the symbols of the copy still point into the queue, which overwrites them later | `next_sent_refuses`, `next_sent_reads_behind`, `next_sent_dangles` |
| F115 | pd_external.c:51-58 | a list to `HV_TO_PD` that has a bang or a hash in it is dropped without a message | `pd_drops_bang` |
| F116 | hv_worklet.js:133-137 | the page gets only the first number of a list | `web_hook_loses` |
| F117 | HeavyOwl.hpp:60-68, HeavyDaisy.cpp:509-519 | a text of at least 63 - len bytes fills the 64 byte buffer without a terminator; the reader runs over its end | `owl_unterminated` |
| F118 | HeavyDPF.cpp:70-79 | `strncpy`/`strcpy` return the start of the buffer: the label is overwritten and never shown; a long text is followed by the rest of the label and uninitialised bytes | `dpf_print`, `dpf_junk` |
| F119 | c2dpf hostTransportEvents.cpp | the distance to the next tick is fixed at each tick: a tempo that begins and ends between two ticks is not heard, one that begins there is heard from the next tick on | `tempo_between_ticks` |
| F120 | HvSignalTabread.h:119-148, tabplay~.pd | `[tabplay~]` with a length beyond the end of the array: one vector behind the size is played and the bang "finished" never comes; with an array that has contents in the patch that vector is behind its memory | `tabplay_plays_over`, `tabplay_overreads` |
| F121 | HvSignalTabread.c:52-56 | the start is rounded down and the length up to whole vectors: with SIMD up to 7 samples before and after the part asked for are heard | `tabplay_plays`, `span` |
| F122 | tabwrite~.pd, HvSignalTabwrite.h:78-92 | the end of a recording is computed from the size of the table when it was chosen: choosing a smaller one during a recording, or an array that was made smaller after loading, lets `[tabwrite~]` store behind its memory; so does `start p` with an array that has contents in the patch (F8) | `set_overruns`, `resized_overruns`, `data_overruns` |
| F123 | PdParser.py:521-530, libs/pd/floatatom.pd | the arguments of `[floatatom]` begin with its name, which thus is `$1`: a bang before the first number sends the name `floatatom`, Pd sends 0 | `atom_starts` |
| F124 | libs/pd/nbx.pd, hsl.pd, vsl.pd, hradio.pd, vradio.pd | the boxes are `[float 0]`: the range of a number box is not enforced, and a box that is saved with its value sends nothing when the program starts and 0 for a bang | `Nbx.box_does` |
| F125 | hv2ir/HeavyGraph.py:474-488, HLangPhasor.py:37-43 | an object connected only to an unconnected inlet~ of its subpatch is compiled as if it were not connected: `[osc~ 440]` below a silent `[inlet~]` plays 440 Hz, Pure Data 0 Hz (the connection makes it a signal of zeros) | `Prune.Formed.forgotten` |
| F126 | pd2hv/PdParser.py:102-104 | the depth is used as the position in the dictionary of canvases: an `@hv_arg` of a subpatch that stands after a subpatch in it becomes an argument of another subpatch | `PdFile.argument_of_a_sibling` |
| F127 | pd2hv/PdParser.py:96-98 | canvases are told apart by the text of their `#N canvas` line: if a subpatch has the line of the file's own canvas, the arguments before it are lost | `PdFile.arguments_lost` |
| F128 | pd2hv/PdParser.py:102-104 | three subpatches in each other with the same `#N canvas` line: IndexError | `PdFile.nested_alike` |
| F129 | pd2hv/PdParser.py:96-98, 245 | a `#N canvas` statement that Pd has written on two lines (a long name) is not found among the canvases: KeyError | `PdFile.broken_line` |
| F130 | Heavy_NAME.cpp:187, libs/pd/bang~.pd | the bang of a call of process is delivered in the next call, with the time of the beginning of the call before; there are two bangs at time 0, the first one from a `[loadbang]` that Pd's `[bang~]` does not have; and Pd gives one for every 64 frames, the program one for every call | `Lib.Bang.next_call`, `Lib.Bang.every_call` |
| F131 | libs/pd/log.pd, HvControlUnop.c:45 | `[log]` gives 0 for numbers that are not positive, Pd's gives -1000; it has no second inlet and no argument for the base | `Lib.Example.logs` |
| F132 | HvControlTabwrite.c:36-42 | a place outside of the array is ignored by `[tabwrite]`, so that the number goes to the place before; Pd takes the nearest element | `Lib.Tabwrite.beside` |
| F133 | pd2hv/PdObject.py:47-49, PdGraph.py:232 | names of objects are drawn at random and two equal ones are not noticed: one of the two boxes is lost and its cables go to the other one (unlikely; the error for duplicate names, HeavyGraph.py:217, cannot occur since the file is a dictionary) | `Handover.same_name` |
| F134 | HeavyLangObject.py:231-242 | the cable of a box that is connected to itself is entered twice at its inlet and not at its outlet (what follows: F60) | `Handover.to_itself` |
| F135 | PdLibSignalGraph.py:63-76, PdBinopObject.py:134-146 | the cables of messages to a signal box are moved to the end of the list of cables when a `sig~` is put in: the box gets its message after all other receivers of the same outlet, so that a patch that overwrites the number behind it (number box to `[mtof~]`, then to the message `[0(` that goes to `[mtof~]`, too) ends with another number than in Pd | `PdBinop.Example.order_changes` |
| F136 | HvControlCast.c:28-34 | an outlet `f` of `[trigger]` is silent for a bang (and for a symbol), Pd sends 0 | `Trigger.Example.silent` |
| F137 | PdTableObject.py:34-53 | `[table name]` has no place (Pd: 100), the same for a size that is not written as a whole number (`1e3`), which also makes a following `@hv_table` ineffective; a negative size gives a table of more than four billion places without memory; nothing is reported | `PdTable.no_size`, `PdTable.Example.negative` |
| F138 | PdAudioIoObject.py:45, HLangDac.py:44-45 | `[dac~ 0]` is accepted without an error; its buffer is called `O-1` and the generated C++ does not compile | `Channels.Example.zero` |
| F139 | pd2hv/PdParser.py:208-212, PdGraph.py:186-198 | the early return before the validation, meant for patches that have errors already, looks at has_error, which get_notices computes from the errors of the root itself and does not update from the boxes inside: a patch with an error in a box is validated all the same (and gets the unrelated errors the comment wants to avoid) | `PdNotices.validated_iff`, `PdNotices.validated_with_error` |
| F140 | compiler.py:197-209, 332-378 | a generator that is not known (`-g jss`) is ignored without a message, a generator module that does not exist only gives a line on the terminal: hvcc exits with 0 and the program that was asked for is not there | `Stages.unknown_generator_ignored`, `Stages.missing_module_ignored` |
| F141 | compiler.py:62-76, 285 | conflicting exposed names are an error, but the C program and all generators are written nevertheless, with identifiers that occur twice; likewise after an error of the GUI reader; only the exit status tells | `Stages.conflicts_stop_nothing`, `Stages.compile_eq` |

Also (read): an exception in a subpatch makes the parent continue with the subpatch's remaining lines; `HLangTable.reduce` creates
`__table` without annotations; `ControlBinop.py` maps `__==`/`__!=` to undefined enum names; two `#X array` in one canvas raise
an AssertionError; the start index of `#A` is ignored; Daisy's HandleMidiMessage reads `data[2]` of a two-element array.

## What is not modelled

* Floating-point rounding, NaN and infinities, except where bit patterns are modelled.
* Memory models weaker than x86-TSO; reordering of memory accesses by the C compiler (the pipe's fields are not volatile).
* C compilers; the C library (`malloc`/`realloc`/`snprintf`/math functions are parameters or absent); `msg_toString`.
* Signal objects other than those of C24-C29, C39, C49, C51-C53, C56, C57, C60-C62, C64, C65; in the theorems about whole programs (C27, C30-C34) they are
  parameters.
* The Pd reader's translation of each Pd object into Heavy objects (library abstractions in `pd2hv/libs`), except for message boxes,
  unpack, route, select, receive, arrays, inlets and outlets, delay lines, metro, delay, pipe, line, poly, the MIDI objects, makenote, timer, change, int,
  moses, spigot, swap, stripnote, until.
* `c2daisy`, `c2owl`, `c2pdext`, `c2unity`, `c2wwise`, `c2fabric` and build files; the user interface code of DPF and JS.
* Memory exhaustion, Python's recursion limit (except C48), file-system errors.

## Trusted base

* Lean 4.33.0's kernel.
* The axioms `propext`, `Classical.choice`, `Quot.sound` of Lean's library; no axiom is added. By `#print axioms`, of the
  783 theorems in MANIFEST.json, 641 use [propext, Classical.choice, Quot.sound]; 111 use [propext, Quot.sound]; 26 use [propext]; 5 use [none].
* The fidelity of the hand-written model to the cited lines of /repo (the code was read, not run), and of the small
  specifications at the head of each `Props` file to the English properties.
* `tools/pdlib.py`, which transcribes a `.pd` abstraction of the library into a list of objects and connections (`lean/Verif/Lib/*.lean`,
  committed; the lists can be read beside the `.pd` files), and the semantics of the object classes in `Verif/Lib.lean`.
* The semantics given to vector instructions in `Verif/Simd.lean` and `Verif/HvMath.lean`, from the vendors' manuals.

## Testing the theorems

`seeded/LOG.jsonl` lists the wrong programs that were tried: edits of model definitions in a scratch copy, and the theorems that
then fail. Survivors led to tightened theorems or were equivalent programs; both are noted there.
