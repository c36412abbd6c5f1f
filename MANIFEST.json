{
 "claims": [
  {
   "property": "C01",
   "status": "partial",
   "theorems": [
    "Verif.LightPipe.pipe_fifo_partial",
    "Verif.LightPipe.pipe_no_loss_partial",
    "Verif.LightPipe.pipe_delivers_all_partial",
    "Verif.LightPipe.unaligned_loses_messages",
    "Verif.LightPipe.tso_fifo_partial",
    "Verif.LightPipe.tso_delivers_all_partial",
    "Verif.LightPipe.early_loads_break"
   ],
   "note": "Proved for messages whose size is a positive multiple of 4; for other sizes the property is false of the code (finding F1, witness unaligned_loses_messages). Memory models: sequential consistency of single accesses, and store buffers (x86-TSO: every delay of the stores of either thread). False on machines that reorder loads (ARM), as the consumer has no barrier (F64, early_loads_break)."
  },
  {
   "property": "C02",
   "status": "partial",
   "theorems": [
    "Verif.LightPipe.pipe_memory_safe_partial",
    "Verif.LightPipe.tso_memory_safe_partial"
   ],
   "note": "Sequential consistency and x86-TSO. Word-sized messages only (see F1)."
  },
  {
   "property": "C03",
   "status": "partial",
   "theorems": [
    "Verif.LightPipe.drained_pipe_accepts_partial",
    "Verif.LightPipe.drained_pipe_refuses"
   ],
   "note": "False of the code in general (finding F2, witness drained_pipe_refuses); proved when the message fits before the wrap point or before the read position."
  },
  {
   "property": "C04",
   "status": "proved",
   "theorems": [
    "Verif.MQ.queue_pops_earliest_first",
    "Verif.MQ.queue_sorted_stable"
   ],
   "note": "Histories of timestamped insertions, pops, cancellations and clears on the pointer-level list; addresses of pending messages distinct (C11). Timestamps are naturals: the 32-bit wrap-around is the subject of C08/C09."
  },
  {
   "property": "C05",
   "status": "proved",
   "theorems": [
    "Verif.MQ.queue_refines_sequence",
    "Verif.MQ.queue_traversals_agree",
    "Verif.MQ.queue_nodes_partition",
    "Verif.MQ.queue_free_frees_all"
   ],
   "note": "All histories of mq_addMessage, mq_addMessageByTimestamp, mq_pop, mq_removeMessage, mq_clear, mq_free."
  },
  {
   "property": "C06",
   "status": "proved",
   "theorems": [
    "Verif.MQ.cancel_removes_exactly"
   ],
   "note": ""
  },
  {
   "property": "C07",
   "status": "partial",
   "theorems": [
    "Verif.MQ.clearAfter_partial",
    "Verif.MQ.clearAfter_breaks_queue"
   ],
   "note": "False of the code when some but not all messages are dropped (finding F3, witness clearAfter_breaks_queue); the partial theorem covers the backward links and the all/none cases."
  },
  {
   "property": "C08",
   "status": "partial",
   "theorems": [
    "Verif.Sched.scheduler_never_faults_partial",
    "Verif.Sched.scheduler_exactly_once_partial",
    "Verif.Sched.process_dispatch_partial",
    "Verif.Sched.dispatch_terminates_partial",
    "Verif.Sched.early_insert_loses_message",
    "Verif.Sched.clock_wrap_strands_message"
   ],
   "note": "Proved for handlers that schedule at or after the time of the message being dispatched and do not cancel it, and while the 32-bit clock does not wrap; false of the code otherwise (findings F4, F22; witnesses early_insert_loses_message, clock_wrap_strands_message)."
  },
  {
   "property": "C09",
   "status": "proved",
   "theorems": [
    "Verif.Sched.process_clock",
    "Verif.Sched.processControl_clock",
    "Verif.Sched.clock_is_total_frames"
   ],
   "note": "For non-negative block sizes; the clock is a 32-bit counter."
  },
  {
   "property": "C10",
   "status": "partial",
   "theorems": [
    "Verif.Sched.sendTimestamp_spec",
    "Verif.Sched.host_message_block_partial"
   ],
   "note": "Exact arithmetic instead of double; same restrictions as C08; inQueue assumed not full."
  },
  {
   "property": "C11",
   "status": "proved",
   "theorems": [
    "Verif.Pool.pool_live_messages_intact",
    "Verif.Pool.pool_writes_inside"
   ],
   "note": "All histories of adds and frees, both variants of hv_min_max_log2."
  },
  {
   "property": "C12",
   "status": "partial",
   "theorems": [
    "Verif.Pool.pool_never_exhausted_partial",
    "Verif.Pool.overcounted_message_leaks",
    "Verif.Pool.seven_character_symbol_leaks"
   ],
   "note": "Proved for messages whose declared size is in the class of their real size; false of the code for over-declared messages (finding F5, witnesses overcounted_message_leaks, seven_character_symbol_leaks)."
  },
  {
   "property": "C13",
   "status": "proved",
   "theorems": [
    "Verif.Msg.copyToBuffer_correct",
    "Verif.Msg.copy_keeps_original",
    "Verif.Msg.copy_correct",
    "Verif.Msg.copy_of_copy"
   ],
   "note": "Byte-level; source and destination disjoint."
  },
  {
   "property": "C14",
   "status": "partial",
   "theorems": [
    "Verif.Msg.built_message",
    "Verif.Msg.declared_size_never_too_small",
    "Verif.Msg.declared_size_exact_partial",
    "Verif.Msg.declared_size_initWith",
    "Verif.Msg.initWithSymbol_overcounts"
   ],
   "note": "False of the code for msg_initWithSymbol, which declares strlen bytes too many (finding F5, witness initWithSymbol_overcounts), and for elements set twice."
  },
  {
   "property": "C15",
   "status": "proved",
   "theorems": [
    "Verif.Msg.isType_correct",
    "Verif.Msg.hasFormat_correct",
    "Verif.Msg.equalsElement_correct",
    "Verif.Msg.getHash_correct",
    "Verif.Msg.setElementToFrom_correct"
   ],
   "note": ""
  },
  {
   "property": "C16",
   "status": "partial",
   "theorems": [
    "Verif.Hash.hash_agree_partial",
    "Verif.Hash.hash_platform_independent",
    "Verif.Hash.reserved_hashes_correct",
    "Verif.Hash.hash_bang_differs",
    "Verif.Hash.hash_nonascii_differs",
    "Verif.Hash.hash_nonascii_raises"
   ],
   "note": "Agreement proved for every ASCII name other than bang; false for 'bang' and non-ASCII (finding F7, witnesses)."
  },
  {
   "property": "C17",
   "status": "partial",
   "theorems": [
    "Verif.Tab.table_resize_partial",
    "Verif.Tab.initWithData_contents",
    "Verif.Tab.onResizeMessage_reports",
    "Verif.Tab.resize_keeps_stale_length",
    "Verif.Tab.resize_length_wrong",
    "Verif.Tab.initWithData_overrun"
   ],
   "note": "Data preservation and zero-filling proved for every SIMD width, allocator behaviour and history; the reported length is wrong when the rounded size does not change (F9) and tables with initial data have less memory than declared (F8): witnesses given."
  },
  {
   "property": "C18",
   "status": "partial",
   "theorems": [
    "Verif.Tab.tabread_correct",
    "Verif.Tab.tabwrite_correct",
    "Verif.Tab.tabwrite_in_bounds_partial",
    "Verif.Tab.tabwrite_stale_index_faults"
   ],
   "note": "Reading is safe and exact after every history; writing is safe unless the table shrinks or is switched after the index was set (F10, witness)."
  },
  {
   "property": "C19",
   "status": "partial",
   "theorems": [
    "Verif.Random.random_in_range",
    "Verif.Random.random_integer_range",
    "Verif.Random.random_full_period_partial",
    "Verif.Random.init_good",
    "Verif.Random.random_stuck"
   ],
   "note": "Range proved for every history; full period 4294967290 proved from every state that is not a multiple of the modulus; false for the seed -5 and the reseeding message 0 (F11, witness random_stuck)."
  },
  {
   "property": "C20",
   "status": "partial",
   "theorems": [
    "Verif.Binop.binop_undefined_iff",
    "Verif.Binop.binop_computes",
    "Verif.Binop.binop_history",
    "Verif.Binop.binop_total",
    "Verif.Binop.binop_constant_operand",
    "Verif.Binop.mod_fraction_divides_by_zero",
    "Verif.Binop.shl_negative_undefined"
   ],
   "note": "Exact arithmetic (finite floats as rationals). Every operator proved for all operands and histories; the undefined operands are characterised exactly; the claim of totality is false of the code for [mod] with a fractional operand (F12), for shifts out of range and for values that do not fit an int."
  },
  {
   "property": "C21",
   "status": "partial",
   "theorems": [
    "Verif.Delay.delay_exactly_once",
    "Verif.Delay.delay_time",
    "Verif.Delay.delay_accepts",
    "Verif.Delay.clear_cancels_partial",
    "Verif.Delay.flush_emits_partial",
    "Verif.Delay.direct_insert_same",
    "Verif.Delay.flush_feedback_escapes_clear",
    "Verif.Delay.flush_breaks_queue_order",
    "Verif.Delay.delay_ninth_refused"
   ],
   "note": "Exactly-once proved for all histories (at most 8 waiting); clear and flush proved for histories in which a flushed message does not come straight back, false otherwise (F28, witness flush_feedback_escapes_clear); a flush may also leave the queue out of order (F27, witness)."
  },
  {
   "property": "C22",
   "status": "partial",
   "theorems": [
    "Verif.Lists.slice_computes",
    "Verif.Lists.slice_setting_silent",
    "Verif.Lists.slice_bytes",
    "Verif.Lists.slice_of_symbol_cannot_be_copied",
    "Verif.Lists.pack_emits_latest_partial",
    "Verif.Lists.pack_symbol_faults",
    "Verif.Lists.pack_symbol_stores_wrong",
    "Verif.Lists.unpack_emits",
    "Verif.Lists.route_routes",
    "Verif.Lists.select_selects",
    "Verif.Lists.route_misses_negative_zero",
    "Verif.Lists.route_symbol_faults"
   ],
   "note": "Slice, unpack, route and select proved for every message and history, also at byte level for slice; false of the code for negative starts and symbols in slices (F6), symbols on the right inlets of pack (F13), negative zero and a lone 'symbol' in route/select (F29): witnesses given."
  },
  {
   "property": "C23",
   "status": "proved",
   "theorems": [
    "Verif.Stored.stored_value_is_latest",
    "Verif.Stored.if_routes",
    "Verif.Stored.cast_converts",
    "Verif.Stored.cast_keeps_time",
    "Verif.Stored.stored_symbol_lost_by_cast"
   ],
   "note": "Symbols are stored by their hash; finding F30 (a stored symbol is dropped by the symbol cast) is stated beside."
  },
  {
   "property": "C24",
   "status": "partial",
   "theorems": [
    "Verif.Simd.del1_scalar",
    "Verif.Simd.del1_sse",
    "Verif.Simd.del1_neon",
    "Verif.Simd.del1_avx_is",
    "Verif.Simd.del1_avx_is_not_a_delay",
    "Verif.Simd.del1_avx_with_0x21"
   ],
   "note": "Proved for scalar, SSE and NEON; false for AVX (finding F31): every eighth sample is nine samples late, exactly characterised; with the constant 0x21 instead of 0x1 the AVX code is proved right."
  },
  {
   "property": "C25",
   "status": "partial",
   "theorems": [
    "Verif.Simd.rpole_scalar",
    "Verif.Simd.rpole_sse",
    "Verif.Simd.rpole_neon",
    "Verif.Simd.rpole_avx_is_not_a_pole",
    "Verif.Simd.rpole_avx_with_0x21"
   ],
   "note": "Exact arithmetic (any commutative ring). Proved for scalar, SSE, NEON; false for AVX because its one-sample delay is wrong (F31, witness); the AVX unrolling itself is proved right for a correct delay."
  },
  {
   "property": "C26",
   "status": "partial",
   "theorems": [
    "Verif.Samphold.samphold_sse",
    "Verif.Samphold.samphold_scalar",
    "Verif.Samphold.samphold_back_ends_agree",
    "Verif.Samphold.samphold_neon_partial",
    "Verif.Samphold.samphold_neon_wrong",
    "Verif.Samphold.IsHold.latest"
   ],
   "note": "Proved for SSE and scalar code for every signal, trigger and message history; for NEON five of the sixteen trigger patterns give a wrong output (missing breaks, F14), exactly characterised; the AVX code is an assertion that fails."
  },
  {
   "property": "C27",
   "status": "partial",
   "theorems": [
    "Verif.Interleave.interleaved_correct_partial",
    "Verif.Interleave.interleaved_avx",
    "Verif.Interleave.interleaved_avx_wrong",
    "Verif.Interleave.interleaved_check",
    "Verif.Interleave.splitInput_is",
    "Verif.Interleave.processInline_is"
   ],
   "note": "Proved for every block size, channel count and back end except AVX with two output channels, where frames come out in the order 0 1 4 5 2 3 6 7 (F15, exactly characterised). The signal code itself is a parameter."
  },
  {
   "property": "C28",
   "status": "partial",
   "theorems": [
    "Verif.Line.line4_ramp_partial",
    "Verif.Line.line8_ramp_partial",
    "Verif.Line.line1_ramp_partial",
    "Verif.Line.rampSpec_end",
    "Verif.Line.line4_jump",
    "Verif.Line.line8_jump",
    "Verif.Line.line4_stop",
    "Verif.Line.line8_stop",
    "Verif.Line.line4_retrigger",
    "Verif.Line.line8_retrigger",
    "Verif.Line.line1_retrigger",
    "Verif.Line.line4_retrigger_skips",
    "Verif.Line.line8_overshoots",
    "Verif.Line.line4_leaves_target",
    "Verif.Line.line8_leaves_target",
    "Verif.Line.line1_overflow"
   ],
   "note": "Exact arithmetic. The ramp is proved linear and to end on the target for every state and every back end, for 2^31 samples after the target; false afterwards (the counter wraps, resp. overflows), and false for retriggers, which start N to N+1 samples ahead of the last output (F16): exact characterisations and witnesses given."
  },
  {
   "property": "C29",
   "status": "partial",
   "theorems": [
    "Verif.Phasor.phasor_sse",
    "Verif.Phasor.phasor_neon",
    "Verif.Phasor.phasor_scalar",
    "Verif.Phasor.phasorK_simd",
    "Verif.Phasor.phasorK_scalar",
    "Verif.Phasor.IsPhase.sum",
    "Verif.Phasor.IsPhase.since",
    "Verif.Phasor.output_eq",
    "Verif.Phasor.output_range",
    "Verif.Phasor.phasor_back_ends_differ",
    "Verif.Phasor.avx_wrap_halves",
    "Verif.Phasor.avx_wrap_keeps"
   ],
   "note": "The 32-bit phase is proved exact for SSE, NEON and scalar code for every step signal and message history; the conversion of frequency to step is C76. False across back ends: the scalar signal phasor is one step behind (F32, witness); the AVX float phase is wrapped by halving (F33, avx_wrap_halves)."
  },
  {
   "property": "C30",
   "status": "partial",
   "theorems": [
    "Verif.Signal.signal_order_correct",
    "Verif.Signal.signal_order_acyclic",
    "Verif.Signal.reaches_leaf",
    "Verif.Signal.tree_order_correct",
    "Verif.Signal.sig_iff",
    "Verif.Signal.control_feedback_breaks_order",
    "Verif.Signal.cycles_are_dropped"
   ],
   "note": "Proved for every graph: exact set, each once, each after all objects feeding it unless the connection closes a cycle of signal *and control* connections; for every nesting of subpatches (tree_order_correct): each signal object of each subpatch exactly once. The claim itself (acyclic in its signal connections only) is false: control feedback through env~ reverses the order (F39, proved)."
  },
  {
   "property": "C31",
   "status": "partial",
   "theorems": [
    "Verif.Signal.compile_correct",
    "Verif.Signal.assignAll_ok",
    "Verif.Signal.compiler_correct",
    "Verif.Signal.tree_compile_correct",
    "Verif.Signal.tree_compiler_correct",
    "Verif.Signal.runActs_ok",
    "Verif.Signal.wire_is_silent"
   ],
   "note": "Proved for every flat graph and for every nesting of subpatches (tree_compile_correct: shared buffers at inlets and outlets, retain counts) whose signal connections do not lie on a cycle of one graph (control connections included, F39); exact addition at dac~. Subpatches that a signal leaves must process a signal: one that only passes a signal through is silent (F54, proved)."
  },
  {
   "property": "C32",
   "status": "proved",
   "theorems": [
    "Verif.Signal.pool_history",
    "Verif.Signal.compile_correct"
   ],
   "note": "All histories of get/retain/release; compile_correct has the bound for whole programs."
  },
  {
   "property": "C33",
   "status": "proved",
   "theorems": [
    "Verif.Signal.cascade_correct",
    "Verif.Signal.pipeline_correct",
    "Verif.Signal.compiler_correct",
    "Verif.Signal.tree_cascade_correct",
    "Verif.Signal.tree_compiler_correct"
   ],
   "note": "cascade_correct: every graph. tree_cascade_correct: every nesting of subpatches. Exact addition (any commutative ring). compiler_correct, tree_compiler_correct: cascade, fusion, ordering, buffer assignment and execution together, up to the sums at all dac~ of all subpatches."
  },
  {
   "property": "C34",
   "status": "proved",
   "theorems": [
    "Verif.Signal.fma_correct",
    "Verif.Signal.fmaMatch_fused",
    "Verif.Signal.tree_fma_correct",
    "Verif.Signal.compiler_correct",
    "Verif.Signal.tree_compiler_correct"
   ],
   "note": "fma_correct: every graph without a cycle of signal connections (cycles closed by messages are allowed), signals unchanged in both directions. tree_fma_correct: every nesting of subpatches. Exact arithmetic (any commutative ring). On ARMv8 the run-time function __hv_fms_f itself has the wrong sign (F66, C60)."
  },
  {
   "property": "C35",
   "status": "partial",
   "theorems": [
    "Verif.Control.control_correct",
    "Verif.Control.fire_order_exists_unique",
    "Verif.PdReceive.deeper_receivers_first",
    "Verif.PdReceive.explicit_priority",
    "Verif.PdReceive.priority_zero_ignored",
    "Verif.PdReceive.crowded_order"
   ],
   "note": "Every receiver once, by descending priority, ties in registration order: proved for every patch. Deeper Pd receivers first: proved for up to 1000 receivers in the patch; false beyond (F20, crowded_order). A priority 0 given by the user is ignored (F40)."
  },
  {
   "property": "C36",
   "status": "partial",
   "theorems": [
    "Verif.Dollar.pd_args_partial",
    "Verif.Dollar.value_arg",
    "Verif.Dollar.value_default",
    "Verif.Dollar.value_zero",
    "Verif.Dollar.order_matters",
    "Verif.Dollar.missing_stays",
    "Verif.Dollar.two_unresolved",
    "Verif.Dollar.heavy_args_partial",
    "Verif.Dollar.heavy_whole_partial",
    "Verif.Dollar.heavy_unknown",
    "Verif.Dollar.heavy_prefix"
   ],
   "note": "Proved, for every visiting order, when no reference is a prefix of another one and values contain no '$'; false otherwise (order_matters: \\$1 inside \\$10 depends on Python's set order; heavy_prefix: $f inside $fm). Two unresolvable references crash the parser."
  },
  {
   "property": "C37",
   "status": "partial",
   "theorems": [
    "Verif.Scope.resolve_visible",
    "Verif.Scope.resolve_innermost_first",
    "Verif.Scope.resolve_scope_in_order",
    "Verif.Scope.resolveOne_innermost",
    "Verif.Scope.names_unique",
    "Verif.Scope.add_accepts",
    "Verif.Scope.static_twice_refused",
    "Verif.Scope.static_private_invisible"
   ],
   "note": "Visibility, order, innermost resolution and uniqueness are proved for every history of additions and removals. The claim about static names is false of the code (F43): a second static declaration is refused and a private static table is invisible outside its own graph."
  },
  {
   "property": "C38",
   "status": "partial",
   "theorems": [
    "Verif.Switchcase.switchcase_exactly_one_partial",
    "Verif.Switchcase.switchcase_one_outlet",
    "Verif.Switchcase.number_taken_for_name",
    "Verif.Switchcase.case_symbol_unreachable",
    "Verif.Switchcase.compiles_iff",
    "Verif.Lists.route_routes",
    "Verif.Lists.select_selects",
    "Verif.Lists.route_misses_negative_zero",
    "Verif.Lists.route_symbol_faults"
   ],
   "note": "Byte-level messages and the generated switch (arms and breaks). Exactly one outlet for every message; the right one unless 32-bit hashes collide. False of the code: every name has a number that is taken for it (F44), the case 'symbol' is unreachable, [route 1 1.0] does not compile, -0.0 and a lone 'symbol' (F29)."
  },
  {
   "property": "C39",
   "status": "partial",
   "theorems": [
    "Verif.ExprSig.expr_correct_partial",
    "Verif.ExprSig.bare_expression_writes_nothing",
    "Verif.ExprSig.eleventh_buffer"
   ],
   "note": "Proved for every expression tree that is more than a single variable or number and never holds more than ten buffers, for every choice of set.pop, every algebra of lane-wise functions in which 0.0 - x is the negation. False otherwise: a bare variable/number writes nothing; the release of Bf10 releases Bf1 (F17). From text to tree: C63."
  },
  {
   "property": "C40",
   "status": "proved",
   "theorems": [
    "Verif.ControlExpr.bindExpr_correct"
   ],
   "note": "Every expression text made of variables, words, escaped commas and other characters in which words and variables do not touch; also covers the renaming of functions."
  },
  {
   "property": "C41",
   "status": "proved",
   "theorems": [
    "Verif.ExprSig.own_evaluator"
   ],
   "note": "Every number and order of expr~ objects with distinct ids."
  },
  {
   "property": "C42",
   "status": "partial",
   "theorems": [
    "Verif.PdText.file_read_partial",
    "Verif.PdText.statements_read_partial",
    "Verif.PdText.splitLine_args_partial",
    "Verif.PdText.backslash_swallows_statement",
    "Verif.PdText.backslash_joins_arguments",
    "Verif.PdText.two_on_a_line"
   ],
   "note": "Proved for every file whose statements and arguments do not end in a backslash, any line breaks at spaces, LF or CRLF; false with a trailing backslash and for two statements on one line (F45). '\\d' restricted to ASCII digits."
  },
  {
   "property": "C43",
   "status": "partial",
   "theorems": [
    "Verif.PdArray.array_contents_partial",
    "Verif.PdArray.array_too_short",
    "Verif.PdArray.array_too_long"
   ],
   "note": "Proved for arrays saved with all their values, in any number of #A lines, and for arrays saved without contents. False otherwise (F18): with 0 < v < n values the table has v samples, with v > n it has 2v-n."
  },
  {
   "property": "C44",
   "status": "proved",
   "theorems": [
    "Verif.PdLets.lets_left_to_right",
    "Verif.PdLets.lets_any_order",
    "Verif.PdLets.connection_type"
   ],
   "note": "Every list of objects with distinct ids, every order; from the Pd parser through the JSON to the inlet list of hv2ir. Ties at the same x are numbered in file order."
  },
  {
   "property": "C45",
   "status": "proved",
   "theorems": [
    "Verif.Control.control_correct",
    "Verif.Control.compile_total",
    "Verif.Control.circle_fails",
    "Verif.Control.Example.code_does",
    "Verif.Lists.unpack_emits"
   ],
   "note": "Every patch with any nesting of subpatches, triggers, sends and receives, any behaviour of the objects (they may keep state and send in any order); the recursion of generated C functions ends exactly if the patch's does."
  },
  {
   "property": "C46",
   "status": "partial",
   "theorems": [
    "Verif.Midi.midi_in",
    "Verif.Midi.midi_in_partial",
    "Verif.Midi.midi_in_wrong_time",
    "Verif.Midi.midiin_diagonal",
    "Verif.Midi.midiin_out_of_bounds",
    "Verif.Midi.realtime_undefined",
    "Verif.Midi.midi_out_partial",
    "Verif.Midi.bend_round_trip",
    "Verif.Midi.status_byte_partial",
    "Verif.Midi.polytouch_becomes_control",
    "Verif.Midi.note_above_127",
    "Verif.Midi.bendout_object",
    "Verif.Midi.midiout_groups",
    "Verif.Midi.midiout_uninitialised",
    "Verif.Midi.midiout_mixes",
    "Verif.Midi.js_midi_in",
    "Verif.Midi.js_midiin_no_status",
    "Verif.Midi.js_midi_out",
    "Verif.Midi.js_midiout_program"
   ],
   "note": "DPF and JS targets. Receiver, channel and data are right for every list of channel messages; the time is that of the first event of the block (false as soon as frames differ), [midiin] gets the wrong bytes, realtime messages read a missing argument, [polytouchout] on a second port becomes a control change, [midiout] starts from an uninitialised counter and writes groups of four (F21, F49-F52). Daisy and OWL (library classes) are not modelled."
  },
  {
   "property": "C47",
   "status": "partial",
   "theorems": [
    "Verif.MessageBox.message_box_partial",
    "Verif.MessageBox.box_read_partial",
    "Verif.MessageBox.remote_read",
    "Verif.MessageBox.remote_only_is_local",
    "Verif.MessageBox.dollar_missing",
    "Verif.MessageBox.dollar_zero_undefined"
   ],
   "note": "From the text of the box in the .pd file through PdMessageObject, hv2ir and the generated C to the messages in memory, for every box of one or more local messages made of numbers, names and $n. False for $0 (undefined behaviour), for $n beyond the incoming message (the element is left unwritten) and for boxes with only remote messages (F46, F47)."
  },
  {
   "property": "C48",
   "status": "partial",
   "theorems": [
    "Verif.PdAbs.no_error_no_recursion",
    "Verif.PdAbs.recursion_is_an_error",
    "Verif.PdAbs.self_not_read_again",
    "Verif.PdAbs.self_recursion_detected",
    "Verif.PdAbs.no_false_alarm",
    "Verif.PdAbs.mutual_recursion_doubles",
    "Verif.PdAbs.mutual_recursion_is_an_error",
    "Verif.PdAbs.hv_terminates"
   ],
   "note": "Every set of complete files. Recursive inclusion always ends in an error, but for mutual recursion only through Python's recursion limit, which is a parameter: with two inclusions per file the number of files read is 2^(limit/2) (F19), i.e. the compiler does not terminate in practice. hv2ir's own path stack is proved to terminate for every finite set of files."
  },
  {
   "property": "C49",
   "status": "partial",
   "theorems": [
    "Verif.Tab.playback_in_bounds_partial",
    "Verif.Tab.playback_plays_table",
    "Verif.Tab.looping_read_in_bounds_partial",
    "Verif.Tab.random_read_in_bounds",
    "Verif.Tab.recording_records_partial",
    "Verif.Tab.playback_unknown_table_faults",
    "Verif.Tab.playback_data_table_overreads",
    "Verif.Tab.looping_read_wraps",
    "Verif.Tab.recording_overruns"
   ],
   "note": "False of the code for tables with initial data (F8), unknown tables (F24), wrapped heads (F25) and for recording, which never stops (F26); witnesses given, the rest proved for every history."
  },
  {
   "property": "C50",
   "status": "proved",
   "theorems": [
    "Verif.Stored.unop_answers"
   ],
   "note": "Library functions are parameters; floats are bit patterns."
  },
  {
   "property": "C51",
   "status": "partial",
   "theorems": [
    "Verif.Simd.cpole_scalar",
    "Verif.Simd.cpole_sse",
    "Verif.Simd.cpole_neon",
    "Verif.Simd.cpole_avx_second_output_unwritten",
    "Verif.Simd.cpole_avx_real_output_is_imaginary"
   ],
   "note": "Exact arithmetic. Proved for scalar, SSE, NEON; false for AVX (F37): the imaginary output is never written and the real output receives the imaginary part."
  },
  {
   "property": "C52",
   "status": "proved",
   "theorems": [
    "Verif.Simd.biquad_scalar",
    "Verif.Simd.biquad_sse",
    "Verif.Simd.biquad_neon",
    "Verif.Simd.biquad_avx"
   ],
   "note": "Exact arithmetic (any commutative ring)."
  },
  {
   "property": "C53",
   "status": "proved",
   "theorems": [
    "Verif.Simd.biquadK_scalar",
    "Verif.Simd.biquadK_sse",
    "Verif.Simd.biquadK_neon",
    "Verif.Simd.biquadK_avx"
   ],
   "note": "Exact arithmetic (any commutative ring); coefficients may change between blocks."
  },
  {
   "property": "C54",
   "status": "partial",
   "theorems": [
    "Verif.Transport.clock_ticks",
    "Verif.Transport.tickAt_const",
    "Verif.Transport.tempo_between_ticks",
    "Verif.Transport.first_tick_at_once",
    "Verif.Transport.negative_tempo_hangs"
   ],
   "note": "Proved for every sequence of positive tempos, blocks, starts and stops, in exact arithmetic: every tick is a 24th of a beat before the next in the tempo at the time of the tick; for a steady tempo the multiples of a 24th of a beat. False for negative tempos (the loop does not end); the ticks are not aligned with the host's beats (F53) and a tempo set between two ticks is not heard (F119)."
  },
  {
   "property": "C55",
   "status": "partial",
   "theorems": [
    "Verif.PdRemote.original_kept",
    "Verif.PdRemote.remote_delivered_partial",
    "Verif.PdRemote.remote_exactly",
    "Verif.PdRemote.gui_sends",
    "Verif.PdRemote.gui_hears",
    "Verif.PdRemote.subpatch_delivers_nothing"
   ],
   "note": "For every canvas of a file: GUI names exactly right; remote messages delivered exactly for outlet 0 of the objects above, so a box below another outlet sends its remote message when the wrong outlet fires; in subpatches everything is lost (both F48, proved)."
  },
  {
   "property": "C56",
   "status": "partial",
   "theorems": [
    "Verif.Conv.conv_none",
    "Verif.Conv.conv_sse",
    "Verif.Conv.conv_neon",
    "Verif.Conv.conv_long_buffer",
    "Verif.Conv.conv_extra_tap",
    "Verif.Conv.conv_reads_beyond",
    "Verif.Conv.conv_shrink_overruns",
    "Verif.Conv.conv_longer_table_asserts"
   ],
   "note": "Proved for scalar, SSE and NEON, every size that is a multiple of the vector width, when the size message equals the table size. False when the ring is longer than the table (extra taps, reads beyond the table: F55), when the size message shrinks or the table grows (F56); AVX has only a failing assertion."
  },
  {
   "property": "C57",
   "status": "partial",
   "theorems": [
    "Verif.Env.env_none_partial",
    "Verif.Env.env_sse_partial",
    "Verif.Env.env_neon_partial",
    "Verif.Env.env_avx_partial",
    "Verif.Env.env_sizes",
    "Verif.Env.weights_normalised",
    "Verif.Env.env_unit_and_silence",
    "Verif.Env.env_overlap_undefined",
    "Verif.Env.env_tiny_window"
   ],
   "note": "Every window, period and signal in every back end, up to rounding to whole vectors. Periods shorter than half the window copy overlapping memory with memcpy: undefined behaviour, proved right only if memcpy copies forwards (F57); windows of 1 or 2 samples in scalar builds divide by zero (F58)."
  },
  {
   "property": "C58",
   "status": "partial",
   "theorems": [
    "Verif.Reduce.operators_reduced_partial",
    "Verif.Reduce.signals_exist",
    "Verif.Reduce.zero_kills_neighbour",
    "Verif.Reduce.loop_raises"
   ],
   "note": "Every graph without loops of signals, no object connected to itself, floating-point signals, exact arithmetic (any field), any behaviour of all other objects. False for a multiplication by the constant 0 (F59: the neighbour behind it may be removed as well) and for an object connected to itself (F60: the compiler raises an exception)."
  },
  {
   "property": "C59",
   "status": "partial",
   "theorems": [
    "Verif.Reduce.sends_arrive_partial",
    "Verif.Reduce.prepared_partial",
    "Verif.Reduce.read_is_late",
    "Verif.Reduce.width_matters",
    "Verif.Reduce.orphan_mutes"
   ],
   "note": "Every graph without loops of signals inside one block whose sends and receives of a name are all of signals or all of messages. A [r~] whose name nobody sends to mutes the operator behind it (F62); the delay is 0 or HV_N_SIMD samples and so differs between builds (F63)."
  },
  {
   "property": "C60",
   "status": "partial",
   "theorems": [
    "Verif.HvMath.unary_exact",
    "Verif.HvMath.abs_exact",
    "Verif.HvMath.binary_exact",
    "Verif.HvMath.div_exact",
    "Verif.HvMath.minmax_ok",
    "Verif.HvMath.builds_agree",
    "Verif.HvMath.signals_agree",
    "Verif.HvMath.wrap_agrees",
    "Verif.HvMath.sqrt_agrees",
    "Verif.HvMath.clip_agrees",
    "Verif.HvMath.fma_ok",
    "Verif.HvMath.fms_ok",
    "Verif.HvMath.cast_after_floor",
    "Verif.HvMath.fms_armv8_negated",
    "Verif.HvMath.cmp_value_differs",
    "Verif.HvMath.neq_nan_differs",
    "Verif.HvMath.cast_rounds",
    "Verif.HvMath.log2_power",
    "Verif.HvMath.onlyScalar_vector"
   ],
   "note": "Every computation made of the operators, in every build, up to the sign of zeros and the bits of NaNs, if comparisons are only used as masks, min~/max~ get numbers, and division and roots are not NEON's estimates. False otherwise: comparison values (F65), multiply-subtract on ARMv8 (F66), float to integer (F67), log2 (F68), and some thirty functions that vector builds do not have (F69)."
  },
  {
   "property": "C61",
   "status": "proved",
   "theorems": [
    "Verif.Snapshot.snapshot_answers",
    "Verif.Snapshot.snapshot_loses_last_tick"
   ],
   "note": "All vector sizes 1, 2, 4, 8; the vectors begin at multiples of their size and the messages due in a vector reach the object before its signal function (C08). A message at the time 2^32-1 is taken for none."
  },
  {
   "property": "C62",
   "status": "partial",
   "theorems": [
    "Verif.Snapshot.sig_is_last_number",
    "Verif.Snapshot.sig_list_is_ramp",
    "Verif.Snapshot.var_k_lanes",
    "Verif.Snapshot.var_k_constant"
   ],
   "note": "Any commutative ring. False for lists whose second element is a number: they are ramps within each vector, constant in the scalar build (F70)."
  },
  {
   "property": "C63",
   "status": "partial",
   "theorems": [
    "Verif.ExprParse.parse_total",
    "Verif.ExprParse.parse_sound",
    "Verif.ExprParse.parse_complete",
    "Verif.ExprParse.unambiguous",
    "Verif.ExprParse.reads_as_c_partial",
    "Verif.ExprParse.expr_text_correct_partial",
    "Verif.ExprParse.names_known",
    "Verif.ExprParse.mixed_comparisons",
    "Verif.ExprParse.rest_ignored",
    "Verif.ExprParse.half_expression",
    "Verif.ExprParse.accepted_then_exception"
   ],
   "note": "Character-level PEG parser with white space and backtracking, for every text. Read as in C unless a comparison is the unparenthesised left operand of a comparison; `<=` and `>=` bind less than `<` and `>` (F71), the part of a text after an expression is ignored without an error (F72), drem, $i and $s crash later (F73). Arpeggio itself is modelled from its documentation."
  },
  {
   "property": "C64",
   "status": "partial",
   "theorems": [
    "Verif.DelayLine.start_ok",
    "Verif.DelayLine.vd_after_write_partial",
    "Verif.DelayLine.vd_before_write_partial",
    "Verif.DelayLine.past_whole",
    "Verif.DelayLine.lanes_before_head",
    "Verif.DelayLine.interpolation_at_wrap",
    "Verif.DelayLine.too_long_reads_ahead",
    "Verif.DelayLine.first_block_out_of_bounds",
    "Verif.DelayLine.zero_length_hangs",
    "Verif.DelayLine.zero_length_start"
   ],
   "note": "Every length, vector size, input and delay signal, every block, exact arithmetic, timestamps that do not wrap. Right for delays up to S-N+i in lane i, with fractional delays below one vector excluded. False otherwise: F74 (interpolation in the first block of a cycle), F75 (delays near the length read new samples), F78 (index before the table in the first block), F79 (length 0 hangs)."
  },
  {
   "property": "C65",
   "status": "partial",
   "theorems": [
    "Verif.DelayLine.delread_delays_partial",
    "Verif.DelayLine.full_length_is_no_delay",
    "Verif.DelayLine.too_long_starts_at_zero",
    "Verif.DelayLine.rounding_depends_on_phase"
   ],
   "note": "Every length, input, argument and history of messages, both orders of delread~ and delwrite~. The rounding is to the next multiple of N of the delay or of its integer part, depending on the write position (F80); a delread~ after delwrite~ with the full length has no delay (F76); longer delays start at the write position (F77)."
  },
  {
   "property": "C66",
   "status": "partial",
   "theorems": [
    "Verif.Lib.Metro.metro_partial",
    "Verif.Lib.Metro.metro_goes_on",
    "Verif.Lib.Metro.metro_regular",
    "Verif.Lib.Metro.metro_regular_exists",
    "Verif.Lib.Metro.metro_drift",
    "Verif.Lib.Metro.code_exists"
   ],
   "note": "Every generated program of the abstraction metro.pd (compiled as in C45), every history. The right inlet gets single numbers (a list there would also change the conversion factor). The period is truncated to whole samples at every bang (F81), so the metronome runs ahead by the lost fraction each time."
  },
  {
   "property": "C67",
   "status": "partial",
   "theorems": [
    "Verif.Lib.Delay.delay_alarm",
    "Verif.Lib.Delay.code_exists",
    "Verif.Lib.Pipe.pipe_line",
    "Verif.Lib.Pipe.pipe_constant_partial",
    "Verif.Lib.Pipe.pipe_ninth_lost",
    "Verif.Lib.Pipe.code_exists"
   ],
   "note": "delay: every history. pipe: every history without the message flush; exact delays when at most eight messages are on their way, a ninth is lost (F82; a debug build stops at an assertion). T is truncated to whole samples."
  },
  {
   "property": "C68",
   "status": "partial",
   "theorems": [
    "Verif.Lib.Makenote.makenote_plays_partial",
    "Verif.Lib.Makenote.makenote_ends_partial",
    "Verif.Lib.Makenote.makenote_ninth_hangs",
    "Verif.Lib.Makenote.code_exists"
   ],
   "note": "Every history of single numbers at the three inlets. Every note ends exactly once if at each note fewer than eight are sounding; a ninth note begins but its end is never scheduled (F83). D is truncated to whole samples. A list at the left inlet is not spread over the inlets (not modelled in the specification)."
  },
  {
   "property": "C69",
   "status": "partial",
   "theorems": [
    "Verif.Lib.Spigot.spigot_does",
    "Verif.Lib.Moses.moses_does",
    "Verif.Lib.Int.int_does",
    "Verif.Lib.Swap.swap_does",
    "Verif.Lib.Timer.timer_does",
    "Verif.Lib.Change.change_does",
    "Verif.Lib.Change.change_removes_repetitions",
    "Verif.Lib.Stripnote.stripnote_does",
    "Verif.Lib.Stripnote.stripnote_lists",
    "Verif.Lib.Stripnote.stripnote_stale",
    "Verif.Lib.Until.until_does"
   ],
   "note": "Every history of the messages the specification speaks about (for spigot and timer: all messages), exact arithmetic. False in two cases: stripnote forgets the velocity 0 of a list (F84), until ignores a bang (F85). timer in reality reads the time as a float, exact up to 2^24 samples."
  },
  {
   "property": "C70",
   "status": "partial",
   "theorems": [
    "Verif.Lib.Line.line_partial",
    "Verif.Lib.Line.line_goes_on",
    "Verif.Lib.Line.line_ramp",
    "Verif.Lib.Line.line_ramp_exists",
    "Verif.Lib.Line.grain_pos",
    "Verif.Lib.Line.line_late",
    "Verif.Lib.Line.line_overshoot",
    "Verif.Lib.Line.line_negative_grain",
    "Verif.Lib.Line.code_exists"
   ],
   "note": "Every history of the messages T, T r, set v, stop, single numbers at the other inlets. The end of a ramp is rounded up to whole grains, the grain down to whole samples (F86); a ramp interrupted before its last grain goes on from a value that may be beyond its target (F87); a negative grain argument makes ramps endless (F88). Exact arithmetic."
  },
  {
   "property": "C71",
   "status": "partial",
   "theorems": [
    "Verif.Lib.Poly.poly_partial",
    "Verif.Lib.Poly.code_plays",
    "Verif.Lib.Poly.oldest_iff",
    "Verif.Lib.Poly.poly_proper",
    "Verif.Lib.Poly.free_voice_plays",
    "Verif.Lib.Poly.full_ignored",
    "Verif.Lib.Poly.full_steals",
    "Verif.Lib.Poly.release_ends",
    "Verif.Lib.Poly.stop_silences",
    "Verif.Lib.Poly.longest_silent",
    "Verif.Lib.Poly.steals_oldest",
    "Verif.Lib.Poly.releases_oldest",
    "Verif.Lib.Poly.stop_forgets",
    "Verif.Lib.Poly.clear_forgets",
    "Verif.Lib.Poly.overflow_steals_newest",
    "Verif.Lib.Poly.code_exists"
   ],
   "note": "Every number of voices > 0 and every history of the messages p, p v, stop, clear and velocities at the second inlet (others are not dealt with; n = 0, the value without arguments, is not either). `longest'/`oldest' hold until 65535 notes have come out and without stop: the numbers of changes wrap (F89), and stop restarts them without changing those of the voices (F90)."
  },
  {
   "property": "C72",
   "status": "partial",
   "theorems": [
    "Verif.Lib.Notein.does",
    "Verif.Lib.Polytouchin.does",
    "Verif.Lib.Bendin.does",
    "Verif.Lib.Touchin.does",
    "Verif.Lib.Pgmin.does",
    "Verif.Lib.Ctlin.does",
    "Verif.Lib.Noteout.does",
    "Verif.Lib.Ctlout.does",
    "Verif.Lib.Polytouchout.does",
    "Verif.Lib.Bendout.does",
    "Verif.Lib.Touchout.does",
    "Verif.Lib.Pgmout.does",
    "Verif.Lib.notein_hears",
    "Verif.Lib.polytouchin_hears",
    "Verif.Lib.bendin_hears",
    "Verif.Lib.touchin_hears",
    "Verif.Lib.pgmin_hears",
    "Verif.Lib.ctlin_hears",
    "Verif.Lib.noteout_sends",
    "Verif.Lib.ctlout_sends",
    "Verif.Lib.polytouchout_sends",
    "Verif.Lib.bendout_sends",
    "Verif.Lib.touchout_sends",
    "Verif.Lib.pgmout_sends",
    "Verif.Lib.ctlin_bank",
    "Verif.Lib.ctlin_zero",
    "Verif.Lib.notein_channel",
    "Verif.Lib.noteout_list"
   ],
   "note": "As stated, for all arguments and histories, except: the messages of a block come at the time of its first event (C46), ports other than 0 for polytouchout (C46), [ctlin] with first argument 0 (F92, F93), lists of three numbers at noteout and its like (F95)."
  },
  {
   "property": "C73",
   "status": "partial",
   "theorems": [
    "Verif.Params.written_input",
    "Verif.Params.written_output",
    "Verif.Params.inputs_are",
    "Verif.Params.inputs_once",
    "Verif.Params.input_range",
    "Verif.Params.inputs_agree",
    "Verif.Params.not_event",
    "Verif.Params.outputs_are",
    "Verif.Params.outputs_once",
    "Verif.Params.output_range",
    "Verif.Params.fine",
    "Verif.Params.init_eq",
    "Verif.Params.keeps_run",
    "Verif.Params.input_parameter",
    "Verif.Params.output_parameter",
    "Verif.Params.set_sends",
    "Verif.Params.parameter_info",
    "Verif.Params.demo_plugin",
    "Verif.Params.demo_fine",
    "Verif.Params.same_name",
    "Verif.Params.same_name_compiles",
    "Verif.Params.underscore_lost",
    "Verif.Params.send_last"
   ],
   "note": "Proved if no two names differ only by a leading _ before a digit (F97), no name is an input and an output parameter (F96, hvcc does not check it and the C++ does not compile) and no two names have the same hash. Not modelled: @raw, the meta file, how numbers are printed."
  },
  {
   "property": "C74",
   "status": "partial",
   "theorems": [
    "Verif.Sig.cos_tilde",
    "Verif.Sig.osc_tilde",
    "Verif.Sig.wrap_tilde",
    "Verif.Sig.clip_tilde",
    "Verif.Sig.sqrt_tilde",
    "Verif.Sig.mtof_tilde",
    "Verif.Sig.ftom_tilde",
    "Verif.Sig.dbtorms_tilde",
    "Verif.Sig.dbtopow_tilde",
    "Verif.Sig.rmstodb_tilde",
    "Verif.Sig.powtodb_tilde",
    "Verif.Sig.dbtorms_zero",
    "Verif.Sig.realWorld_real",
    "Verif.Sig.Mtof.signals",
    "Verif.Sig.Osc.signals",
    "Verif.Sig.Cos.signals",
    "Verif.Sig.Clip.signals"
   ],
   "note": "The patches are transcribed by tools/pdsig.py and evaluated over the real numbers (C58: the compiled program computes the same graph). Missing: rounding of floats; the values of log2 at 0 and below, so ftom~, rmstodb~ and powtodb~ are proved for positive signals; dbtorms~ and dbtopow~ are not 0 at 0 dB (F99); that the phase of [osc~] is in [0,1] is C29."
  },
  {
   "property": "C75",
   "status": "partial",
   "theorems": [
    "Verif.Lib.Lop.coefficients",
    "Verif.Lib.Biquad.coefficients",
    "Verif.Sig.biquad_tilde",
    "Verif.Sig.biquad_tilde_bounded",
    "Verif.Sig.biquad_example",
    "Verif.Lib.Hip.coefficients",
    "Verif.Sig.lop_tilde",
    "Verif.Sig.lop_bounded",
    "Verif.Sig.lop_settles",
    "Verif.Sig.lop_limit",
    "Verif.Sig.lop_tilde_bounded",
    "Verif.Sig.lop_example",
    "Verif.Sig.hip_tilde",
    "Verif.Sig.hip_bounded",
    "Verif.Sig.hip_settles",
    "Verif.Sig.hip_limit",
    "Verif.Sig.hip_coef",
    "Verif.Sig.poleWorld_pole",
    "Verif.Sig.poleWorld_delay",
    "Verif.Sig.rpole_tilde",
    "Verif.Sig.rzero_tilde",
    "Verif.Sig.rzero_rev_tilde",
    "Verif.Sig.cpole_tilde",
    "Verif.Sig.czero_tilde",
    "Verif.Sig.czero_rev_tilde",
    "Verif.Sig.pole_bounded",
    "Verif.Lib.Bp.coefficients",
    "Verif.Sig.bp_tilde",
    "Verif.Sig.bp_stable",
    "Verif.Sig.bp_bounded",
    "Verif.Sig.bp_negative",
    "Verif.Sig.bp_zero",
    "Verif.Sig.bp_example",
    "Verif.Sig.biquad_bounded",
    "Verif.Sig.biquad_grows",
    "Verif.Lib.Vcf.coefficients",
    "Verif.Sig.vcf_tilde",
    "Verif.Sig.vcf_bounded",
    "Verif.Sig.vcf_example"
   ],
   "note": "The signal part is the transcribed patch over the real numbers, with the pole and delay objects behaving as C25 proves their code does; the control part is the generated message code of the same patch. [bp~] is bounded for steady frequencies above 0; bp_negative and bp_zero are findings (F107). Missing: rounding of floats; the change of a coefficient is seen at the block it arrives in, as C58's worlds have it."
  },
  {
   "property": "C76",
   "status": "partial",
   "theorems": [
    "Verif.Phasor.phasor_turns_scalar",
    "Verif.Phasor.phasor_turns_simd",
    "Verif.Phasor.turns_constant",
    "Verif.Phasor.turns_exists",
    "Verif.Phasor.phasor_signal_sse",
    "Verif.Phasor.phasor_signal_neon",
    "Verif.Phasor.phasor_signal_scalar",
    "Verif.Phasor.osc_turns",
    "Verif.Phasor.osc_frequency",
    "Verif.Phasor.wrapPhase_done",
    "Verif.Phasor.whole_phase_undefined",
    "Verif.Phasor.high_frequency_undefined"
   ],
   "note": "For SSE, NEON and scalar code, over exact arithmetic for the products before the conversion to integer. Missing: rounding of the float products; AVX (its phase is a float that halves instead of wrapping, F33). Conversions that are undefined in C are undefined here too: frequencies of at least half the sample rate (F101) and whole positive phases; the theorems exclude them and whole_phase_undefined, high_frequency_undefined show they are excluded rightly."
  },
  {
   "property": "C77",
   "status": "proved",
   "theorems": [
    "Verif.Noise.noise_value",
    "Verif.Noise.noise_range",
    "Verif.Noise.noise_period",
    "Verif.Noise.noise_progression",
    "Verif.Noise.noise_seed_zero"
   ],
   "note": "The integer part is exact; the last product is over the rationals. In the scalar build the product of ints overflows, which C leaves undefined; here it wraps. noise_progression and noise_seed_zero are findings (F102)."
  },
  {
   "property": "C78",
   "status": "partial",
   "theorems": [
    "Verif.Sig.tabread4_indices",
    "Verif.Sig.tabread4_tilde",
    "Verif.Sig.tabread4_entry",
    "Verif.Sig.tabread4_end",
    "Verif.Sig.tabread4_not_cubic",
    "Verif.Sig.tabread4_stale",
    "Verif.Sig.tabread_tilde_cut",
    "Verif.Sig.tabread_tilde_round",
    "Verif.Sig.tabosc4_tilde",
    "Verif.Sig.tabosc4_guard",
    "Verif.Sig.lerp_int",
    "Verif.Sig.lerp_between",
    "Verif.Sig.lerp_line",
    "Verif.Sig.tabWorld_tab4",
    "Verif.Lib.Tabread4.told",
    "Verif.Lib.TabreadS.told",
    "Verif.Lib.Tabosc4.told",
    "Verif.Sig.roundUp_spec",
    "Verif.Sig.tabread4_plays",
    "Verif.Sig.tabread4_pad",
    "Verif.Sig.tabread_plays_cut",
    "Verif.Sig.tabread_plays_round",
    "Verif.Sig.tabosc4_plays",
    "Verif.Sig.tabread4_example",
    "Verif.Sig.tabread_example",
    "Verif.Sig.tabosc4_example"
   ],
   "note": "The patches transcribed by tools/pdsig.py over the real numbers; the readers behave as C49 proves of their code wherever the index is in the table. The generated code that asks for the size and passes names on is run beside the signals (told, plays), for every history of `set` messages with names of tables and other messages. Missing: rounding of floats; `set` with an unknown name (it faults, F24); tables resized in between (tabread4_stale). tabread4_end, tabread4_not_cubic, tabread4_stale, tabread4_pad, tabosc4_guard are findings (F103, F104, F109)."
  },
  {
   "property": "C79",
   "status": "partial",
   "theorems": [
    "Verif.Lib.accurate_exists",
    "Verif.Lib.Mtof.mtof_does",
    "Verif.Lib.Mtof.mtof_near",
    "Verif.Lib.Ftom.ftom_does",
    "Verif.Lib.Ftom.ftom_near",
    "Verif.Lib.Dbtorms.dbtorms_does",
    "Verif.Lib.Dbtorms.dbtorms_near",
    "Verif.Lib.Dbtopow.dbtopow_does",
    "Verif.Lib.Dbtopow.dbtopow_near",
    "Verif.Lib.Rmstodb.rmstodb_does",
    "Verif.Lib.Rmstodb.rmstodb_near",
    "Verif.Lib.Powtodb.powtodb_does",
    "Verif.Lib.Powtodb.powtodb_near",
    "Verif.Lib.Wrap.wrap_does",
    "Verif.Lib.Exp.exp_does",
    "Verif.Lib.Exp.exp_near",
    "Verif.Lib.Sqrt.sqrt_does",
    "Verif.Lib.Sqrt.sqrt_near",
    "Verif.Lib.Clip.clip_does",
    "Verif.Lib.Div.div_does",
    "Verif.Lib.Div.div_negative",
    "Verif.Lib.Tgl.tgl_does",
    "Verif.Lib.Tgl.tgl_forgets",
    "Verif.Lib.Tabread.tabread_does",
    "Verif.Lib.Tabread.clipped"
   ],
   "note": "The patches transcribed by tools/pdlib.py, compiled (Code) and run as C66 describes. Missing: rounding of the float products and sums (numbers are rational; the library functions have a relative error); for some objects only single-number messages are covered, as the history predicates Single, Only, Fits say. div_negative and tgl_forgets are findings (F105)."
  },
  {
   "property": "C80",
   "status": "partial",
   "theorems": [
    "Verif.BiquadCheck.check_right",
    "Verif.BiquadCheck.check_wrong",
    "Verif.BiquadCheck.check_initial",
    "Verif.BiquadCheck.stable_triangle"
   ],
   "note": "Over the real numbers, with C's comparisons false for the quotient 0/0. The full statement is false for a2 = 0, a1 <= 0 (check_wrong), in particular for the initial coefficients (check_initial): F106. Missing: rounding."
  },
  {
   "property": "C81",
   "status": "partial",
   "theorems": [
    "Verif.CableTypes.resolved_right",
    "Verif.CableTypes.reached_all",
    "Verif.CableTypes.right_unique",
    "Verif.CableTypes.easy_resolves",
    "Verif.CableTypes.chain_resolves",
    "Verif.CableTypes.diamond_fails",
    "Verif.CableTypes.order_decides",
    "Verif.CableTypes.loop_stays_open",
    "Verif.CableTypes.right_inlet_ignored",
    "Verif.PdBinop.operator_hears",
    "Verif.PdBinop.others_stay",
    "Verif.PdBinop.gain_hears"
   ],
   "note": "Proved for every graph in which the pass reports no error; that it reports none is proved when every object has declared outlets or a typed left inlet (easy_resolves). It is false in general (F108): diamond_fails, order_decides, loop_stays_open. Missing: subgraphs in the type pass; a right inlet's signal does not count (right_inlet_ignored)."
  },
  {
   "property": "C82",
   "status": "partial",
   "theorems": [
    "Verif.Host.process_spec",
    "Verif.Host.in_place",
    "Verif.Host.place_does_not_matter",
    "Verif.Host.leftover_untouched",
    "Verif.Host.short_call",
    "Verif.Host.block_size_independent",
    "Verif.Host.clock_late",
    "Verif.Host.session_exists",
    "Verif.Host.pd_wiring",
    "Verif.Host.wwise_mono_right",
    "Verif.Host.wwise_bus",
    "Verif.Host.owl_stereo",
    "Verif.Host.web_connected",
    "Verif.Host.web_stuck",
    "Verif.Host.web_never"
   ],
   "note": "The signal code is a parameter (C31, C45); buffers are addresses in one memory. Proved for whole vectors; frames beyond the last whole vector are neither read nor written and the clock loses them (F110: leftover_untouched, short_call, clock_late). False of Wwise with a stereo patch on a mono bus (F111) and of disconnected inputs in the web target (F112: web_stuck, web_never). Alignment of the buffers is assumed."
  },
  {
   "property": "C83",
   "status": "partial",
   "theorems": [
    "Verif.HostMsg.send_message",
    "Verif.HostMsg.default_send_hook",
    "Verif.HostMsg.build",
    "Verif.HostMsg.send_float",
    "Verif.HostMsg.send_bang",
    "Verif.HostMsg.send_symbol",
    "Verif.HostMsg.send_v",
    "Verif.HostMsg.send_v_empty",
    "Verif.HostMsg.send_v_unknown_letter",
    "Verif.HostMsg.on_message",
    "Verif.HostMsg.on_message_other",
    "Verif.HostMsg.send_hook",
    "Verif.HostMsg.echo",
    "Verif.HostMsg.delivered",
    "Verif.HostMsg.next_sent",
    "Verif.HostMsg.next_sent_refuses",
    "Verif.HostMsg.next_sent_reads_behind",
    "Verif.HostMsg.next_sent_dangles",
    "Verif.HostMsg.web_hook",
    "Verif.HostMsg.web_hook_loses",
    "Verif.HostMsg.pd_example",
    "Verif.HostMsg.pd_example_back",
    "Verif.HostMsg.pd_drops_bang"
   ],
   "note": "Bytes of one memory, 64-bit layout; the queue gives an address (its order and its bytes: C11, C12). Proved for all messages below 64 kB. Not true of the code, and so proved as counterexamples: sendMessageToReceiverV with another letter sends what was on the stack (F113), getNextSentMessage copies 8 bytes too many, refuses memory that is large enough and leaves the symbols pointing into the queue (F114), a list with a bang or a hash is not given to Pd (F115), the browser gets only the first number (F116)."
  },
  {
   "property": "C84",
   "status": "partial",
   "theorems": [
    "Verif.Print.to_string",
    "Verif.Print.owl_bytes",
    "Verif.Print.owl_print",
    "Verif.Print.owl_unterminated",
    "Verif.Print.dpf_print",
    "Verif.Print.dpf_junk",
    "Verif.Print.print_example",
    "Verif.Print.hook_example"
   ],
   "note": "The text of %g is a parameter. False of the hooks for long texts: OWL and Daisy do not terminate the text (F117: owl_unterminated); DPF overwrites the label and shows bytes of the stack (F118: dpf_print, dpf_junk)."
  },
  {
   "property": "C85",
   "status": "partial",
   "theorems": [
    "Verif.Lib.Tabplay.tabplay_does",
    "Verif.Lib.Tabplay.tabplay_starts",
    "Verif.Lib.Tabplay.tabplay_plays",
    "Verif.Lib.Tabplay.tabplay_plays_over",
    "Verif.Lib.Tabplay.tabplay_overreads",
    "Verif.Lib.Tabplay.tabplay_stops",
    "Verif.Lib.Tabplay.tabplay_sets",
    "Verif.Lib.Tabplay.tabplay_live",
    "Verif.Lib.Tabplay.ex_linked"
   ],
   "note": "Numbers are rationals (as in C66); the graph of the patch is generated from tabplay~.pd by tools/pdlib.py, its generated code by the control compiler of C45. The messages go to the model of the player (C49). Proved for lengths inside the table; beyond it the code sends no bang, and with an array that has contents in the patch it reads behind its memory (F120). That the bang of the player reaches the right outlet is a connection in the patch and not modelled."
  },
  {
   "property": "C86",
   "status": "partial",
   "theorems": [
    "Verif.Lib.TabwriteS.tabwrite_does",
    "Verif.Lib.TabwriteS.tabwrite_safe",
    "Verif.Lib.TabwriteS.tabwrite_records",
    "Verif.Lib.TabwriteS.set_overruns",
    "Verif.Lib.TabwriteS.resized_overruns",
    "Verif.Lib.TabwriteS.data_overruns",
    "Verif.Lib.TabwriteS.ex_linked",
    "Verif.Lib.TabwriteS.ex_live"
   ],
   "note": "Numbers are rationals (as in C66), so the time of the stop is exact; floats may round it by samples. The graph is generated from tabwrite~.pd by tools/pdlib.py. That the messages of the samples of a vector are dealt with before the vector is C08. False of the code, and so excluded by hypotheses and proved as counterexamples: a smaller table chosen while recording, an array made smaller after loading, arrays with contents in the patch (F122)."
  },
  {
   "property": "C87",
   "status": "partial",
   "theorems": [
    "Verif.Whole.patch_plays_partial",
    "Verif.Whole.patch_has_signals",
    "Verif.Whole.reads_first",
    "Verif.Whole.reduced_signals",
    "Verif.Whole.Example.compilable",
    "Verif.Whole.Example.sends_first",
    "Verif.Whole.Example.plays",
    "Verif.Whole.Echo.compilable",
    "Verif.Whole.Echo.mailed",
    "Verif.Whole.Echo.plays"
   ],
   "note": "Composes C59 (send~/receive~), C58 (reduce) and C30-C34 (cascade, fma, order, buffers) and runs the process list block after block, with the variables and the state of every object; feedback through send~/receive~ included: the read on a feedback path is late, and there always are signals (example: an echo). Missing: names under which only messages or nothing is sent, subgraphs (the later passes for trees are in C30-C34), multiplication by the constant 0 (F of C58), loops that contain a signal. The channels of adc~ and dac~ are given as separate objects; numbers are those of a field (no rounding)."
  },
  {
   "property": "C88",
   "status": "proved",
   "theorems": [
    "Verif.Lib.box_bang",
    "Verif.Lib.box_holds",
    "Verif.Lib.Nbx.box_does",
    "Verif.Lib.Float.box_does",
    "Verif.Lib.Floatatom.box_does",
    "Verif.Lib.Symbolatom.box_does",
    "Verif.Lib.Symbol.box_does",
    "Verif.Lib.Bng.bng_does",
    "Verif.Lib.Abs.abs_does",
    "Verif.Lib.atom_starts",
    "Verif.Lib.box_history"
   ],
   "note": "For the generated code of the library patches (transcribed by tools/pdlib.py), all histories of non-empty messages; numbers without rounding. The library files of nbx, hsl, vsl, hradio, vradio are the same. Findings F123, F124."
  },
  {
   "property": "C89",
   "status": "proved",
   "theorems": [
    "Verif.Prune.pruned_right",
    "Verif.Prune.prune_plays",
    "Verif.Prune.Formed.cleared",
    "Verif.Prune.Formed.forgotten",
    "Verif.Prune.Example.formed",
    "Verif.Prune.Example.pruned",
    "Verif.Prune.Example.fed"
   ],
   "note": "The connections of all graphs are one list, the graphs a tree. What the objects do with an inlet that has become unconnected is not part of the claim: an argument takes over (F125)."
  },
  {
   "property": "C90",
   "status": "proved",
   "theorems": [
    "Verif.PdFile.file_read",
    "Verif.PdFile.numbered",
    "Verif.PdFile.argument_of_a_sibling",
    "Verif.PdFile.arguments_lost",
    "Verif.PdFile.nested_alike",
    "Verif.PdFile.broken_line",
    "Verif.PdFile.Example.ok",
    "Verif.PdFile.Example.read"
   ],
   "note": "Statements are given (C42 cuts the text). The arguments of subpatches are not claimed: they go astray (F126). What is added after the last statement is C55, the contents of arrays C43, which file an object is read from C48."
  },
  {
   "property": "C91",
   "status": "proved",
   "theorems": [
    "Verif.Lib.Samplerate.does",
    "Verif.Lib.Loadbang.does",
    "Verif.Lib.Bang.does",
    "Verif.Lib.Bang.next_call",
    "Verif.Lib.Bang.every_call",
    "Verif.Lib.Midirealtimein.does",
    "Verif.Lib.Midiin.does",
    "Verif.Lib.Example.asked",
    "Verif.Lib.Example.three_calls",
    "Verif.Lib.Example.clock"
   ],
   "note": "Bang.next_call speaks about the scheduler (C01, C08): a call shorter than one SIMD block delivers nothing."
  },
  {
   "property": "C92",
   "status": "proved",
   "theorems": [
    "Verif.Lib.Sin.does",
    "Verif.Lib.Cos.does",
    "Verif.Lib.Tan.does",
    "Verif.Lib.Atan.does",
    "Verif.Lib.Log.does",
    "Verif.Lib.Tabwrite.does",
    "Verif.Lib.Tabwrite.size",
    "Verif.Lib.Tabwrite.put",
    "Verif.Lib.Tabwrite.beside",
    "Verif.Lib.Example.logs",
    "Verif.Lib.Example.writes"
   ],
   "note": "The functions of the C library are parameters. Not covered: places between the length of a table and its memory (rounded up to the SIMD width), and set messages (C18 has both for the C function)."
  },
  {
   "property": "C93",
   "status": "proved",
   "theorems": [
    "Verif.Handover.canvas_crosses",
    "Verif.Handover.outlet_order",
    "Verif.Handover.same_name",
    "Verif.Handover.to_itself",
    "Verif.Handover.Example.ok",
    "Verif.Handover.Example.crosses"
   ],
   "note": "One canvas: the contents of a subpatch cross in the same way. Names are drawn at random; what happens when two are the same is same_name, a box that is connected to itself is to_itself (see F60)."
  },
  {
   "property": "C94",
   "status": "partial",
   "theorems": [
    "Verif.PdBinop.box_hears",
    "Verif.PdBinop.others_keep",
    "Verif.PdBinop.same_goals",
    "Verif.PdBinop.order_after_partial",
    "Verif.PdBinop.order_stays",
    "Verif.PdBinop.Example.meets",
    "Verif.PdBinop.Example.hears",
    "Verif.PdBinop.Example.order_changes"
   ],
   "note": "Missing is the order of the cables, which is false: order_after_partial says for every canvas and outlet what it is afterwards (first the inlets that need no sig~, then the others by boxes), order_stays when it is that of the patch for certain, Example.order_changes a patch that ends with another number (F135). The numbers that are held are those of the order of sending in the compiled graph."
  },
  {
   "property": "C95",
   "status": "partial",
   "theorems": [
    "Verif.Trigger.outlets",
    "Verif.Trigger.numbers",
    "Verif.Trigger.bangs_partial",
    "Verif.Trigger.Example.meets",
    "Verif.Trigger.Example.sends",
    "Verif.Trigger.Example.refused",
    "Verif.Trigger.Example.silent"
   ],
   "note": "Missing is f for a bang, which is false: the outlet is silent where Pd sends 0 (bangs_partial says what is sent, Example.silent is an instance, F136). What the box sends is the meaning of a sequence in C45, which the generated code implements in every patch. Which words Python takes for numbers is a parameter; numbers are rationals."
  },
  {
   "property": "C96",
   "status": "partial",
   "theorems": [
    "Verif.PdTable.sized_partial",
    "Verif.PdTable.found_by_host",
    "Verif.PdTable.name_needed",
    "Verif.PdTable.no_size",
    "Verif.PdTable.Example.hundred",
    "Verif.PdTable.Example.nothing",
    "Verif.PdTable.Example.negative"
   ],
   "note": "Missing are the tables without a size, for which the property is false: they have no place at all (no_size, for every such list of arguments), and a negative size gives a table without memory (Example.negative, F137). Which texts Python's int accepts is a parameter; sizes are below 2^30."
  },
  {
   "property": "C97",
   "status": "proved",
   "theorems": [
    "Verif.Channels.inputs_declared",
    "Verif.Channels.outputs_declared",
    "Verif.Channels.inputs_number",
    "Verif.Channels.outputs_number",
    "Verif.Channels.buffers_differ",
    "Verif.Channels.Example.four",
    "Verif.Channels.Example.meets",
    "Verif.Channels.Example.zero"
   ],
   "note": "Channels are counted from 1; a channel 0 or less is accepted and gives a program that does not compile (Example.zero, F138). What is played on the channels is C82 and C87."
  },
  {
   "property": "C98",
   "status": "proved",
   "theorems": [
    "Verif.PdNotices.stops_iff",
    "Verif.PdNotices.reported_iff",
    "Verif.PdNotices.reported_added",
    "Verif.PdNotices.exception_alone",
    "Verif.PdNotices.warned_iff",
    "Verif.PdNotices.validated_iff",
    "Verif.PdNotices.validated_with_error"
   ],
   "note": "The name and place that are put before each text are left out. validated_iff and validated_with_error: the other check, that of the parser, sees the errors of the root only (F139)."
  },
  {
   "property": "C99",
   "status": "proved",
   "theorems": [
    "Verif.Stages.exit_iff",
    "Verif.Stages.compile_eq",
    "Verif.Stages.exit_zero_iff",
    "Verif.Stages.generator_runs_iff",
    "Verif.Stages.unknown_generator_ignored",
    "Verif.Stages.missing_module_ignored",
    "Verif.Stages.conflicts_stop_nothing",
    "Verif.Stages.exWorld_honest"
   ],
   "note": "The stages are what they answer; exceptions that nobody catches are not modelled. Generators that are not known and modules that are not there are left out without an error (F140), conflicts of names and errors of the GUI reader stop nothing (F141). exit_iff needs no hypothesis on the answers."
  }
 ]
}