{"id": "C01", "title": "Light pipe is a lossless FIFO between two threads", "statement": "Whatever one producer thread successfully writes into a HvLightPipe (getWriteBuffer returned non-NULL, bytes written, produce called) is read by the one consumer thread exactly once, in the order produced, with the same length and the same bytes; hasData never announces anything else.", "quantifier": "every pipe length, every sequence of message sizes and contents, every interleaving of the producer's and the consumer's individual memory accesses", "why_tests_cant": "The number of interleavings and wrap-around positions is unbounded; a test exercises a few lucky schedules.", "anchors": ["hvcc/generators/ir2c/static/HvLightPipe.c: hLp_getWriteBuffer, hLp_produce, hLp_hasData, hLp_getReadBuffer, hLp_consume"]}
{"id": "C02", "title": "Light pipe never touches memory outside its buffer", "statement": "No operation of the pipe, by either thread, reads or writes a byte outside the numBytes given to hLp_init, provided that length is at least 4.", "quantifier": "every length, message size, history and interleaving", "why_tests_cant": "An out-of-bounds store by four bytes usually goes unnoticed in a test; the condition depends on the exact fill level at a wrap.", "anchors": ["hvcc/generators/ir2c/static/HvLightPipe.c: all functions"]}
{"id": "C03", "title": "A drained light pipe accepts every message that fits", "statement": "If the consumer has read everything, getWriteBuffer(n) returns a buffer for every n with n + 8 <= length, so a producer that retries (as the header documents) eventually succeeds.", "quantifier": "every history of produced and consumed messages that leaves the pipe empty, every n", "why_tests_cant": "Depends on where the heads happen to stand after an arbitrary history.", "anchors": ["hvcc/generators/ir2c/static/HvLightPipe.c: hLp_getWriteBuffer", "hvcc/generators/ir2c/static/HvLightPipe.h:47-57"]}
{"id": "C04", "title": "Message queue delivers in timestamp order, first-come-first-served on ties", "statement": "After any sequence of timestamped insertions and pops, popping the queue yields the pending messages in non-decreasing timestamp order, messages with equal timestamps in insertion order, each exactly once.", "quantifier": "every sequence of mq_addMessageByTimestamp / mq_pop / mq_removeMessage calls", "why_tests_cant": "Order bugs appear only for particular interleavings of timestamps over unbounded histories.", "anchors": ["hvcc/generators/ir2c/static/HvMessageQueue.c: mq_addMessageByTimestamp, mq_pop, mq_peek"]}
{"id": "C05", "title": "Linked-list queue implements an abstract sequence", "statement": "The pointer manipulation of the message queue (nodes drawn from and returned to a free pool, next/prev links, head/tail) always represents exactly the abstract sequence of pending messages: no node is lost, duplicated or shared between pool and queue, forwards and backwards traversals agree, and size() is its length.", "quantifier": "every reachable queue state and every operation", "why_tests_cant": "Structural corruption (a stale prev pointer, a node in two lists) surfaces only many operations later.", "anchors": ["hvcc/generators/ir2c/static/HvMessageQueue.c: mq_getOrCreateNodeFromPool, mq_addMessage, mq_addMessageByTimestamp, mq_pop, mq_removeMessage, mq_clear, mq_size"]}
{"id": "C06", "title": "Cancelling a scheduled message removes that message only", "statement": "hv_cancelMessage removes exactly the pending occurrence of the given message with the given target from the schedule; all other pending messages keep their order and will still be delivered, and cancelling something not pending changes nothing.", "quantifier": "every queue state, every message identity and target", "why_tests_cant": "Head, tail, middle and only-element cases combined with arbitrary histories.", "anchors": ["hvcc/generators/ir2c/static/HvMessageQueue.c: mq_removeMessage", "hvcc/generators/ir2c/static/HeavyContext.cpp: hv_cancelMessage"]}
{"id": "C07", "title": "mq_clearAfter drops exactly the messages at or after a timestamp", "statement": "After mq_clearAfter(t) the queue contains exactly the earlier pending messages in their order, and the queue remains well formed for later insertions and pops.", "quantifier": "every queue state and every t", "why_tests_cant": "Requires reasoning about every split point of the list and the state of the free pool afterwards.", "anchors": ["hvcc/generators/ir2c/static/HvMessageQueue.c: mq_clearAfter"]}
{"id": "C08", "title": "process() dispatches every due message exactly once, in time order, before its block", "statement": "A call process(n) hands to its receiver every scheduled message whose timestamp is before the end of a processed block, at that block, in timestamp order with ties in scheduling order, exactly once, including messages that handlers schedule during dispatch; later messages stay scheduled.", "quantifier": "every pending schedule, block size, SIMD width, number of blocks, and every behaviour of the handlers", "why_tests_cant": "Handlers may schedule arbitrary new messages during dispatch; the histories are unbounded.", "anchors": ["hvcc/generators/ir2c/templates/Heavy_NAME.cpp:178-267", "hvcc/generators/ir2c/static/HvMessageQueue.h: mq_hasMessageBefore"]}
{"id": "C09", "title": "process() advances the clock by exactly the samples it renders", "statement": "process(n) renders and returns n rounded down to a multiple of the SIMD width, and the context's current sample time grows by exactly that amount per call, so times given to the host are consistent over any sequence of calls.", "quantifier": "every sequence of block sizes and every SIMD width", "why_tests_cant": "The claim is about accumulated drift over unbounded call histories and about 32-bit wrap-around.", "anchors": ["hvcc/generators/ir2c/templates/Heavy_NAME.cpp:178-267"]}
{"id": "C10", "title": "A host message with a delay fires in the block containing its due time", "statement": "sendMessageToReceiver(hash, delayMs, m) schedules m at current time + floor(max(0,delay)*sampleRate/1000) samples; it is dispatched in exactly the block [start, end) that contains that time (or the first one processed afterwards), never earlier.", "quantifier": "every delay, sample rate, current time and block sequence", "why_tests_cant": "Timing boundaries (due time equal to a block edge) are easy to miss by sampling.", "anchors": ["hvcc/generators/ir2c/static/HeavyContext.cpp: sendMessageToReceiver", "hvcc/generators/ir2c/templates/Heavy_NAME.cpp:95-107,178-267"]}
{"id": "C11", "title": "Message pool never gives overlapping memory to live messages", "statement": "For every history of adding and freeing messages, each live pooled message occupies its own bytes inside the pool buffer: regions of different live messages never overlap, never leave the buffer, and are at least as long as the message.", "quantifier": "every sequence of adds and frees with any message sizes", "why_tests_cant": "Allocator aliasing depends on the whole allocation history.", "anchors": ["hvcc/generators/ir2c/static/HvMessagePool.c: mp_addMessage, mp_freeMessage, mp_messagelistForSize", "hvcc/generators/ir2c/static/HvUtils.h: hv_min_max_log2"]}
{"id": "C12", "title": "Message pool does not leak", "statement": "Freeing a message makes its memory available again for messages of the same size: a host that repeatedly schedules and delivers a bounded set of messages never exhausts the pool.", "quantifier": "every unbounded sequence of add/free pairs and any message", "why_tests_cant": "Leaks show up only after very long runs.", "anchors": ["hvcc/generators/ir2c/static/HvMessagePool.c: mp_addMessage, mp_freeMessage", "hvcc/generators/ir2c/static/HvMessage.c: msg_initWithSymbol, msg_copyToBuffer"]}
{"id": "C13", "title": "Copying a message preserves its contents and needs exactly its declared size", "statement": "msg_copyToBuffer (and therefore msg_copy, the pool and the pipe) yields a message with the same timestamp and the same elements (floats, hashes, bangs, symbol text), whose symbol text lives inside the copy, and it writes no more than the byte count it was given.", "quantifier": "every message: any number and kind of elements, any symbol lengths, any destination size", "why_tests_cant": "Round-trip and bounds over all element lists.", "anchors": ["hvcc/generators/ir2c/static/HvMessage.c: msg_copyToBuffer, msg_copy", "hvcc/generators/ir2c/static/HvMessage.h: msg_getSize"]}
{"id": "C14", "title": "A message's declared byte size covers its contents", "statement": "For every message built through the public init/set functions or produced by the control objects, msg_getSize is exactly the number of bytes that a self-contained copy needs.", "quantifier": "every construction sequence", "why_tests_cant": "The size is maintained incrementally by many functions; one that forgets an update is only visible for particular types of elements.", "anchors": ["hvcc/generators/ir2c/static/HvMessage.h: msg_setSymbol, msg_getSize", "hvcc/generators/ir2c/static/HvMessage.c: msg_initWithSymbol, msg_setElementToFrom", "hvcc/generators/ir2c/static/HvControlSlice.c"]}
{"id": "C15", "title": "Format and element comparison mean what they say", "statement": "msg_hasFormat(m, fmt) is true exactly when m has one element per format character and each has the type named by it; msg_equalsElement is true exactly when both elements exist and are equal in type and value; the type predicates are false for out-of-range indices.", "quantifier": "every message, format string and index pair", "why_tests_cant": "Quantifies over all strings and messages.", "anchors": ["hvcc/generators/ir2c/static/HvMessage.c: msg_hasFormat, msg_compareSymbol, msg_equalsElement", "hvcc/generators/ir2c/static/HvMessage.h"]}
{"id": "C16", "title": "Compiler and runtime agree on name hashes", "statement": "The hash the Python compiler writes into the generated code for a receiver, table or symbol name equals hv_string_to_hash of the same name at run time, so hv_sendMessageToReceiver(hv_stringToHash(name)) reaches the receiver.", "quantifier": "every name", "why_tests_cant": "Equality of two independent hash implementations over all strings.", "anchors": ["hvcc/generators/ir2c/static/HvUtils.c: hv_string_to_hash", "hvcc/core/hv2ir/HeavyLangObject.py: get_hash", "hvcc/generators/ir2c/HeavyObject.py: get_hash"]}
{"id": "C17", "title": "Resizing a table keeps the data and reports the new length", "statement": "After hTable_resize(n) / hv_table_setLength(n) the table's length is n, its first min(old,n) samples are unchanged, all samples the old table did not have are zero, and the buffer has room for every index the runtime may access.", "quantifier": "every old and new length, contents and SIMD width", "why_tests_cant": "Alignment corner cases over all pairs of lengths.", "anchors": ["hvcc/generators/ir2c/static/HvTable.c: hTable_init, hTable_initWithData, hTable_resize, hTable_onMessage", "hvcc/generators/ir2c/static/HeavyContext.cpp: setLengthForTable"]}
{"id": "C18", "title": "Control table access stays inside the table", "statement": "[tabread]/[tabwrite] at control rate never read or write outside the table's buffer for any index, including negative, fractional, huge and stale ones, and an in-range index accesses exactly that sample.", "quantifier": "every message and every history of table changes", "why_tests_cant": "Out-of-range accesses depend on a history of resizes between messages.", "anchors": ["hvcc/generators/ir2c/static/HvControlTabread.c", "hvcc/generators/ir2c/static/HvControlTabwrite.c"]}
{"id": "C19", "title": "Random generator output is always in [0,1) and never gets stuck", "statement": "Every output of [random]/hv noise generator is in range, and the generator never reaches the absorbing zero state from any seed the user can give.", "quantifier": "every seed and every number of draws", "why_tests_cant": "Requires a property of all iterates of the recurrence.", "anchors": ["hvcc/generators/ir2c/static/HvControlRandom.c"]}
{"id": "C20", "title": "Binary operators are total and guarded", "statement": "Each control binop returns the documented value for all operands; division and modulo by zero give 0 instead of a fault, unipolar modulo lies in [0,|k|), and the right operand is the most recent one received.", "quantifier": "all operands and all message histories", "why_tests_cant": "Edge operands (zero, negative, |k|<1) are exactly what tests skip.", "anchors": ["hvcc/generators/ir2c/static/HvControlBinop.c"]}
{"id": "C21", "title": "Delay object: each queued message is emitted once unless cleared", "statement": "For [del]/[pipe]-style delay objects: a message emits once after the delay; clear cancels everything still pending and nothing else in the system; flush emits everything pending now and exactly once.", "quantifier": "every sequence of messages, clears, flushes and block boundaries", "why_tests_cant": "Interaction between the object's bookkeeping and the global queue over unbounded histories.", "anchors": ["hvcc/generators/ir2c/static/HvControlDelay.c", "hvcc/generators/ir2c/ControlDelay.py"]}
{"id": "C22", "title": "List objects compute the documented list functions", "statement": "[__slice i n] emits exactly elements i..i+n-1 (or the rest), and signals the second outlet when nothing is left; [pack] emits the list of most recent values per inlet; [unpack]/[route]/[select] graphs built by the compiler emit the corresponding elements.", "quantifier": "every message, index and length", "why_tests_cant": "All lists, all indices including negatives.", "anchors": ["hvcc/generators/ir2c/static/HvControlSlice.c", "hvcc/generators/ir2c/static/HvControlPack.c", "hvcc/interpreters/pd2hv/PdUnpackObject.py", "hvcc/interpreters/pd2hv/PdRouteObject.py"]}
{"id": "C23", "title": "Stored-value objects hold the last value", "statement": "[float]/[symbol]/__var emits the most recent value stored on any inlet when banged; storing on the right inlet emits nothing; [if] routes each message to exactly one outlet according to the most recent condition; casts convert type and never lose the timestamp.", "quantifier": "every message history", "why_tests_cant": "Statement about all histories.", "anchors": ["hvcc/generators/ir2c/static/HvControlVar.c", "hvcc/generators/ir2c/static/HvControlIf.c", "hvcc/generators/ir2c/static/HvControlCast.c"]}
{"id": "C24", "title": "One-sample delay is independent of SIMD width and block boundaries", "statement": "__del1~ outputs the input delayed by exactly one sample with initial zero, for scalar, SSE, NEON and AVX code, over any number of blocks.", "quantifier": "every input signal, any number of blocks, every SIMD back end", "why_tests_cant": "Equality of streams over unbounded time and lanes; tests run one back end.", "anchors": ["hvcc/generators/ir2c/static/HvSignalDel1.h"]}
{"id": "C25", "title": "Recursive pole filter: block-vector code equals the recurrence", "statement": "__rpole~ computes y[n] = x[n] - a[n]*y[n-1] for scalar and for the unrolled SIMD code, over any number of blocks (in exact arithmetic).", "quantifier": "every input and coefficient signal, any number of blocks, every SIMD back end", "why_tests_cant": "Algebraic identity over all inputs and all times.", "anchors": ["hvcc/generators/ir2c/static/HvSignalRPole.h"]}
{"id": "C26", "title": "Sample-and-hold holds the last triggered value", "statement": "__samphold~ outputs, at every sample, the input at the latest sample whose trigger is on (0 before the first), identically for all SIMD back ends.", "quantifier": "every input/trigger signal, any number of blocks, every SIMD back end", "why_tests_cant": "16 mask cases x unbounded history; the back ends are separate code.", "anchors": ["hvcc/generators/ir2c/static/HvSignalSamphold.h"]}
{"id": "C27", "title": "Interleaved and planar processing agree", "statement": "hv_processInlineInterleaved produces the interleaving of what hv_process would produce: sample i of channel c is found at index i*channels+c, input and output, for every SIMD back end and any number of channels the back end claims to support.", "quantifier": "every block size, channel count and SIMD back end", "why_tests_cant": "A permutation identity over all sizes and lane widths.", "anchors": ["hvcc/generators/ir2c/templates/Heavy_NAME.cpp:269-397"]}
{"id": "C28", "title": "line~ ramps linearly to its target and stays there", "statement": "After [target time( line~ outputs the linear ramp that starts from the current value, reaches the target after the given number of samples, and outputs exactly the target for ever after; a retrigger starts from the value last output.", "quantifier": "every target, duration, retrigger time and run length", "why_tests_cant": "Long-run behaviour and retriggers at any sample position.", "anchors": ["hvcc/generators/ir2c/static/HvSignalLine.h", "hvcc/generators/ir2c/static/HvSignalLine.c"]}
{"id": "C29", "title": "Phasor phase accumulation is exact and independent of block splitting", "statement": "The integer phase of phasor~ after k samples is the initial phase plus the sum of all increments modulo 2^32, independent of how the samples are divided into SIMD vectors and blocks.", "quantifier": "every frequency signal, any number of blocks, every SIMD back end", "why_tests_cant": "Prefix-sum lane code versus sequential accumulation over unbounded time.", "anchors": ["hvcc/generators/ir2c/static/HvSignalPhasor.h", "hvcc/generators/ir2c/static/HvSignalPhasor.c"]}
{"id": "C30", "title": "Signal objects run after everything they depend on, exactly once", "statement": "In the generated process loop every signal object that contributes to an output occurs exactly once, and after all objects feeding it, for every acyclic signal graph.", "quantifier": "every finite signal graph and every insertion order", "why_tests_cant": "All graphs of all sizes.", "anchors": ["hvcc/core/hv2ir/HeavyGraph.py: __order_signal_objects", "hvcc/core/hv2ir/HeavyIrObject.py: get_parent_order"]}
{"id": "C31", "title": "Buffer sharing never corrupts a signal", "statement": "Executing the generated process list with the assigned temporary buffers yields, for every object, the same inputs as if every connection had its own buffer: no buffer is overwritten while a later object still has to read it.", "quantifier": "every acyclic signal graph, fan-out and assignment history", "why_tests_cant": "This is register-allocation correctness over all graphs.", "anchors": ["hvcc/core/hv2ir/BufferPool.py", "hvcc/core/hv2ir/HeavyIrObject.py: assign_signal_buffers", "hvcc/core/hv2ir/HeavyGraph.py: assign_signal_buffers"]}
{"id": "C32", "title": "The declared number of temporary buffers covers all used indices", "statement": "Every temporary buffer index used in the process list is smaller than the count the generated code declares, and the buffer pool never hands out the same buffer twice while retained.", "quantifier": "every sequence of get/retain/release operations", "why_tests_cant": "Every allocation history.", "anchors": ["hvcc/core/hv2ir/BufferPool.py: get_buffer, num_buffers, retain_buffer, release_buffer"]}
{"id": "C33", "title": "Multiple signal connections to one inlet are summed", "statement": "When several signals are connected to one inlet, the compiled graph feeds that inlet with the sum of all of them (in exact arithmetic), whatever their number.", "quantifier": "every number of connections and all signals", "why_tests_cant": "Tree construction for any n.", "anchors": ["hvcc/core/hv2ir/HeavyGraph.py: cascade_expansion"]}
{"id": "C34", "title": "Fusing multiply-add preserves the signal", "statement": "Replacing a multiply feeding an add by a fused multiply-add leaves every observable signal unchanged, in particular when the product is used elsewhere.", "quantifier": "every graph to which the rewrite is applied", "why_tests_cant": "All contexts of the rewrite.", "anchors": ["hvcc/core/hv2ir/HeavyGraph.py: fma_replacement"]}
{"id": "C35", "title": "Receivers fire in priority order", "statement": "A message sent to a name reaches every receiver with this name exactly once, in descending priority, ties in instantiation order; deeper Pd receivers come before shallower ones.", "quantifier": "every set of receivers and every nesting depth", "why_tests_cant": "All multisets of priorities; a numeric encoding of depth and instance may collide for large patches.", "anchors": ["hvcc/core/hv2ir/HeavyGraph.py: group_control_receivers", "hvcc/interpreters/pd2hv/PdReceiveObject.py: to_hv"]}
{"id": "C36", "title": "Dollar arguments are substituted independently", "statement": "In abstractions, each $n in an argument is replaced by the n-th argument (or its default), and text that is not a $n reference is unchanged.", "quantifier": "every argument string and argument list", "why_tests_cant": "All strings, including overlapping names such as $1 and $10.", "anchors": ["hvcc/core/hv2ir/HeavyGraph.py: resolve_arguments", "hvcc/interpreters/pd2hv/PdParser.py: __resolve_object_args"]}
{"id": "C37", "title": "Name lookup finds the innermost visible object", "statement": "A reference to a named object (table, send/receive, var) resolves to the objects of that name in the innermost enclosing scope that declares one, respecting private/protected/public, and a static name always resolves to one shared instance.", "quantifier": "every graph nesting and every registration order", "why_tests_cant": "All trees of scopes.", "anchors": ["hvcc/core/hv2ir/LocalVars.py", "hvcc/core/hv2ir/HeavyGraph.py: resolve_objects_for_name, add_object"]}
{"id": "C38", "title": "route/select/switchcase send each message to exactly one outlet", "statement": "A message whose first element equals a case goes to the outlet of that case, every other message goes to the last outlet, and never to more than one.", "quantifier": "every case list and every message", "why_tests_cant": "All messages; correctness depends on 32-bit hashes of arbitrary symbols being distinct.", "anchors": ["hvcc/generators/ir2c/ControlSwitchcase.py", "hvcc/generators/ir2c/static/HvMessage.c: msg_getHash"]}
{"id": "C39", "title": "Compiled expr~ computes the expression", "statement": "The sequence of vector instructions emitted for an [expr~] object stores in the output buffer the value of the expression, for all inputs, using only declared buffers.", "quantifier": "every expression tree, every input", "why_tests_cant": "Compiler correctness over all expressions (size and nesting unbounded).", "anchors": ["hvcc/generators/ir2c/expr/expr_c_writer.py: BufferAllocator, _to_c_simd", "hvcc/generators/ir2c/SignalExpr.py"]}
{"id": "C40", "title": "Variables in control expr refer to the right inlet", "statement": "In the C text generated for [expr], every $fN/$iN is replaced by the reference to inlet N and nothing else is changed, for any set of variables.", "quantifier": "every expression text", "why_tests_cant": "Textual substitution over all strings; $f1 is a prefix of $f10.", "anchors": ["hvcc/generators/ir2c/ControlExpr.py: bind_expr, var_n"]}
{"id": "C41", "title": "Every expr~ object calls its own evaluator", "statement": "With any number of expr~ objects in a patch, the process loop of each one calls the function generated for that same object.", "quantifier": "every number and order of expr~ objects", "why_tests_cant": "All process lists.", "anchors": ["hvcc/generators/ir2c/SignalExpr.py: get_C_process, get_C_obj_header_code, get_C_class_header_code", "hvcc/generators/ir2c/ir2c.py:234-272"]}
{"id": "C42", "title": "Pd file lines and arguments are tokenised faithfully", "statement": "Reading a .pd file yields exactly the statements written in it: a statement broken over several lines is rejoined, escaped semicolons and escaped spaces do not split, and unescaping restores the original arguments.", "quantifier": "every list of statements and every argument text", "why_tests_cant": "All texts and line break positions.", "anchors": ["hvcc/interpreters/pd2hv/PdParser.py: get_pd_line, split_line"]}
{"id": "C43", "title": "Array contents match the declared size", "statement": "A Pd array saved with size n is compiled to a table of n samples containing the saved values, with unsupplied values zero.", "quantifier": "every declared size and every list of values", "why_tests_cant": "All pairs of sizes.", "anchors": ["hvcc/interpreters/pd2hv/PdParser.py:268-290", "hvcc/generators/ir2c/HeavyTable.py"]}
{"id": "C44", "title": "Inlets and outlets are numbered by horizontal position", "statement": "The inlets (outlets) of a subpatch are numbered 0..k-1 from left to right, whatever order the objects appear in the file.", "quantifier": "every set of inlet objects and every order of insertion", "why_tests_cant": "All permutations.", "anchors": ["hvcc/interpreters/pd2hv/PdGraph.py: add_object"]}
{"id": "C45", "title": "Control messages fan out depth-first in connection order", "statement": "A message leaving an outlet is delivered to each connected inlet once, in connection order, each delivery completing before the next; trigger/unpack/pack fire their outlets right to left.", "quantifier": "every control graph", "why_tests_cant": "All graphs.", "anchors": ["hvcc/core/hv2ir/HeavyIrObject.py: get_ir_control_list", "hvcc/core/hv2ir/HLangSequence.py", "hvcc/generators/ir2c/HeavyObject.py: get_C_impl"]}
{"id": "C46", "title": "MIDI events are translated without loss", "statement": "For the DPF target each incoming channel message results in one message to the matching receiver with the event's own time, channel and data, 14-bit pitch bend survives a bendin/bendout round trip, and the outgoing status byte carries the command and a channel below 16.", "quantifier": "every MIDI event list and every outgoing message", "why_tests_cant": "All byte triples and event lists.", "anchors": ["hvcc/generators/c2dpf/templates/midiInput.cpp", "hvcc/generators/c2dpf/templates/midiOutput.cpp"]}
{"id": "C47", "title": "Message boxes substitute $n from the incoming message", "statement": "A message box with literal and $n elements emits, per comma-separated message, exactly its elements with each $n replaced by the n-th element of the incoming message, keeping timestamp and types.", "quantifier": "every message box text and incoming message", "why_tests_cant": "All messages.", "anchors": ["hvcc/generators/ir2c/ControlMessage.py", "hvcc/interpreters/pd2hv/PdMessageObject.py"]}
{"id": "C48", "title": "Recursive abstractions are detected", "statement": "Compiling a patch whose abstractions (mutually) include one another terminates with an error instead of recursing for ever.", "quantifier": "every set of abstraction files and inclusion relation", "why_tests_cant": "All inclusion graphs.", "anchors": ["hvcc/interpreters/pd2hv/PdGraph.py: is_abstraction_on_call_stack", "hvcc/interpreters/pd2hv/PdParser.py: graph_from_file, graph_from_canvas"]}
{"id": "C49", "title": "Signal table playback and recording stay inside the table", "statement": "tabread~/tabwrite~ heads never access samples outside the table buffer and stop at the end of the table, for any start/stop message at any time.", "quantifier": "every message history, table length, number of blocks", "why_tests_cant": "Head positions over unbounded histories.", "anchors": ["hvcc/generators/ir2c/static/HvSignalTabread.h", "hvcc/generators/ir2c/static/HvSignalTabread.c", "hvcc/generators/ir2c/static/HvSignalTabwrite.h", "hvcc/generators/ir2c/static/HvSignalTabwrite.c"]}
{"id": "C50", "title": "Unary operators answer every float exactly once", "statement": "Every unary math object answers each message that starts with a float with exactly one float at the same time, the named function of it, where sqrt and the logarithms give 0 for every number that is not positive; other messages send nothing.", "quantifier": "every operator, message and bit pattern", "why_tests_cant": "2^32 operands per operator, including NaN and signed zeros.", "anchors": ["hvcc/generators/ir2c/static/HvControlUnop.c: cUnop_onMessage"]}
{"id": "C51", "title": "Complex pole filter: block-vector code equals the complex recurrence", "statement": "__cpole~ computes y[n] = x[n] - a[n]*y[n-1] over the complex numbers (real and imaginary signals) and writes both outputs, for scalar and for the unrolled SIMD code, over any number of blocks (in exact arithmetic).", "quantifier": "every input and coefficient signal, any number of blocks, every SIMD back end", "why_tests_cant": "Algebraic identity over all inputs and all times.", "anchors": ["hvcc/generators/ir2c/static/HvSignalCPole.h: __hv_cpole_f", "hvcc/generators/ir2c/static/HvSignalCPole.c"]}
{"id": "C52", "title": "Biquad filter with signal coefficients equals its difference equation", "statement": "biquad~ computes y[n] = b0 x[n] + b1 x[n-1] + b2 x[n-2] - a1 y[n-1] - a2 y[n-2] with the coefficients of sample n, for every back end, over any number of blocks (in exact arithmetic).", "quantifier": "every input and five coefficient signals, any number of blocks, every SIMD back end", "why_tests_cant": "Recursion over unbounded time; tests run one back end.", "anchors": ["hvcc/generators/ir2c/static/HvSignalBiquad.c: __hv_biquad_f"]}
{"id": "C53", "title": "Biquad filter with message coefficients equals its difference equation", "statement": "The constant-coefficient biquad, whose coefficient matrix is precomputed when a coefficient message arrives, computes the same difference equation in every back end, also across coefficient changes between blocks (in exact arithmetic).", "quantifier": "every input signal, every history of coefficient changes, any number of blocks, every SIMD back end", "why_tests_cant": "Recursion over unbounded time and coefficient histories.", "anchors": ["hvcc/generators/ir2c/static/HvSignalBiquad.h: __hv_biquad_k_f", "hvcc/generators/ir2c/static/HvSignalBiquad.c: sBiquad_k_updateCoefficients"]}
{"id": "C54", "title": "MIDI clock made from the host transport is exact across blocks", "statement": "On the DPF target, while the host transport plays at a tempo, clock messages arrive at [midirealtimein] at every multiple of a 24th of a beat counted in samples played, each in its own block with the right delay, none lost or doubled, and starts, stops, continues and returns to the beginning are announced, for any block lengths (in exact arithmetic); the call returns for every tempo.", "quantifier": "every sample rate, sequence of blocks with their tempos, and history of starts and stops", "why_tests_cant": "Accumulation over unboundedly many blocks of arbitrary lengths.", "anchors": ["hvcc/generators/c2dpf/templates/hostTransportEvents.cpp", "hvcc/generators/c2dpf/templates/HeavyDPF.hpp"]}
{"id": "C55", "title": "Remote messages and the send and receive names of GUI boxes are delivered", "statement": "Whatever reaches the inlet of a message box makes each of its remote messages (after a semicolon) be sent to its named receiver; whatever leaves a GUI box with a send name is also sent to that name; whatever is sent to the receive name of a GUI box reaches it; nothing else is sent, and the other objects and connections of the patch are unchanged. This holds in patches, abstractions and subpatches.", "quantifier": "every patch file or subpatch, every set of boxes and connections", "why_tests_cant": "Patches have any number of boxes and any wiring; the added objects must not disturb any of it.", "anchors": ["hvcc/interpreters/pd2hv/PdParser.py: graph_from_canvas", "hvcc/interpreters/pd2hv/PdGraph.py: add_object, add_parsed_connection"]}
{"id": "C56", "title": "conv~ computes the convolution of its input with the table", "statement": "After the size message of the table, [conv~] outputs at every sample the sum of coefficient i times the input i samples earlier, the input being silent before its start, whatever the history of blocks and of tables of the same size, and never reads or writes outside its buffers, for every SIMD back end (in exact arithmetic).", "quantifier": "every table size, coefficients, input signal, number of blocks, history of table changes, SIMD back end", "why_tests_cant": "The ring of past inputs wraps at every position; the claim is about unbounded time and sizes.", "anchors": ["hvcc/generators/ir2c/static/HvSignalConvolution.c: sConv_init, sConv_onMessage, sConv_kernel, __hv_conv_f"]}
{"id": "C57", "title": "env~ reports the windowed power of its input at every period", "statement": "[env~ window period] sends, once per period of samples after the first full window and at the right time, the level in decibels of the Hann-weighted power of the last window of input; every report is sent exactly once, a signal of constant magnitude 1 reads 100, silence reads 0, in every SIMD back end (in exact arithmetic).", "quantifier": "every window, period, input signal, number of blocks and SIMD back end", "why_tests_cant": "Sliding windows over unbounded time for every pair of sizes.", "anchors": ["hvcc/generators/ir2c/static/HvSignalEnvelope.c: sEnv_initWithPeriod, __hv_env_f, sEnv_sendMessage"]}
{"id": "C58", "title": "The operators of a patch compute in the compiled program what they compute in the patch", "statement": "Replacing the arithmetic objects ([+~], [*~ -1], [cos~], [sig~], [+], [abs], ...) of a patch by program objects keeps its meaning: no such object is left, all other objects stay, their outlets carry the same signals and their inlets receive the same signals and messages, an inlet without signal holds the last number sent to it or the object's argument, operations that change nothing are left out without effect, and messages travel along the same ways in the same order.", "quantifier": "every patch: any number of objects and connections, any mixture of signal and control connections, any arguments, any behaviour of the other objects, any messages at any time", "why_tests_cant": "Every operator is rewritten in place, in an order given by the file, while its neighbours are being rewritten too; tests cover a few shapes.", "anchors": ["hvcc/core/hv2ir/HeavyGraph.py: reduce, update_connection, remove_object, add_object", "hvcc/core/hv2ir/HeavyLangObject.py: replace_connection, get_connection_move_list, _get_connection_format", "hvcc/core/hv2ir/HLangBinop.py: reduce", "hvcc/core/hv2ir/HLangUnop.py: reduce", "hvcc/core/hv2ir/HLangVar.py: reduce"]}
{"id": "C59", "title": "Whatever is sent by send~ and throw~ arrives at every receive~ and catch~ of the name", "statement": "Every [receive~ name] or [catch~ name] carries the sum of all signals that [send~ name] or [throw~ name] objects of the patch get, each either at once or late by one vector of samples (silence before), according to the order in which the objects run; all other objects, signals and messages are unchanged, and no send~ or receive~ object is left in the program.", "quantifier": "every patch: any number of sends and receives of any number of names, any connections, any signals and messages", "why_tests_cant": "Sends and receives are replaced by shared variables, in place, in every mixture of numbers; the delay depends on the order of all objects.", "anchors": ["hvcc/core/hv2ir/HeavyGraph.py: remap_send_receive", "hvcc/core/hv2ir/LocalVars.py", "hvcc/core/hv2ir/HLangReceive.py: reduce", "hvcc/core/hv2ir/HLangSend.py: reduce", "hvcc/generators/ir2c/static/HvSignalVar.h: __hv_varread_f, __hv_varwrite_f"]}
{"id": "C60", "title": "A signal operator gives the same samples in every SIMD build", "statement": "Compiled for AVX, SSE, NEON (ARMv7 or ARMv8) or without SIMD, the stateless signal functions (+~ -~ *~ /~ abs~ cos~ exp~ pow~ min~ max~ clip~ wrap~ sqrt~, comparisons used as masks, integer operators) give the same number at every sample, and no assertion fails.", "quantifier": "every build, every signal, every sample, every composition of the operators; any arithmetic in which the result is a function of the operands", "why_tests_cant": "Each function has up to six implementations chosen at compile time; a test runs one of them on a few samples.", "anchors": ["hvcc/generators/ir2c/static/HvMath.h: all __hv_*_f, __hv_*_i functions", "hvcc/generators/ir2c/static/HvUtils.h: HV_N_SIMD, hv_min_f, hv_fma_f"]}
{"id": "C61", "title": "snapshot~ answers with the sample of the time of the bang", "statement": "[snapshot~] answers each vector of samples in which messages arrive exactly once, at the start of the next vector, with the value the signal has at the timestamp of the last of these messages; without a message it says nothing.", "quantifier": "every signal, every history of messages at times below 2^32, every vector size (scalar, SSE, NEON, AVX)", "why_tests_cant": "The sample is picked from the vector by masking the timestamp, and the time of the answer by rounding; all times and histories matter.", "anchors": ["hvcc/generators/ir2c/static/HvSignalSample.c: sSample_init, sSample_onMessage, __hv_sample_f", "hvcc/generators/ir2c/SignalSample.py: get_C_process"]}
{"id": "C62", "title": "sig~ and constant signals hold one number at every sample", "statement": "[sig~ k] puts out, at every sample and in every build, the last number sent to it and k before the first one; constant operands compiled into the program have their value at every sample; messages that do not begin with a number change nothing.", "quantifier": "every build, every history of messages, every number", "why_tests_cant": "Each build fills the lanes of its vectors by its own code, and histories are unbounded.", "anchors": ["hvcc/generators/ir2c/static/HvSignalVar.c: sVarf_update, sVarf_init, sVarf_onMessage", "hvcc/generators/ir2c/static/HvSignalVar.h: __hv_var_k_f, __hv_var_k_f_r", "hvcc/generators/ir2c/SignalVar.py: get_C_process"]}
{"id": "C63", "title": "The text of an expr~ object means what it means in C", "statement": "Every text that is an expression by the grammar of C (operators with C's precedence and left associativity, unary operators, parentheses, calls of the supported functions with 1 to 3 arguments, numbers, variables, any white space) is read as that expression, and the compiled code computes its value; the parser comes to a result on every text, and a text that is not an expression is not compiled.", "quantifier": "every text; every expression of any size and every way to write it", "why_tests_cant": "The parser has no lexer and decides by ordered choice and backtracking between operators that are prefixes of one another (| and ||, < and <= and <<); expressions are unbounded.", "anchors": ["hvcc/generators/ir2c/expr/expr_arpeggio_grammar.py: expr ... f_name, expr_grammar", "hvcc/generators/ir2c/expr/expr_arpeggio_parser.py: ExprArpeggioParser.parse_to_ast, to_expr_tree", "hvcc/generators/ir2c/expr/expr_c_writer.py: ExprOpMap, _bind_var_node"]}
{"id": "C64", "title": "delwrite~ with vd~ is a variable delay line", "statement": "A vd~ (or delread4~) puts out, at sample n, the signal sent to the delwrite~ of its name as it was D samples before, linearly interpolated between samples and silent before the start, for every delay signal D between 0 and the length of the line; when vd~ runs before delwrite~ (feedback) the delay is one vector longer. Nothing is read or written outside the table, for ever.", "quantifier": "every length, vector size, input signal and delay signal, every block of an unbounded run", "why_tests_cant": "The buffer is circular, its start is mirrored at its end by messages the object sends itself once per cycle, and errors occur only in particular blocks of a cycle and for particular delays.", "anchors": ["hvcc/interpreters/pd2hv/libs/pd/delwrite~.pd", "hvcc/interpreters/pd2hv/libs/pd/vd~.pd", "hvcc/interpreters/pd2hv/libs/pd/delread4~.pd", "hvcc/generators/ir2c/static/HvTable.c: hTable_onMessage", "hvcc/generators/ir2c/static/HvSignalTabwrite.h: __hv_tabwrite_f", "hvcc/generators/ir2c/static/HvSignalTabread.h: __hv_tabread_if", "hvcc/generators/ir2c/static/HvSignalVar.h: __hv_var_k_f"]}
{"id": "C65", "title": "delread~ is a fixed delay that can be changed by messages", "statement": "delread~ puts out the signal of the delwrite~ of its name delayed by the delay of its argument or, from the block of a message on, by the last delay it was sent; the delay is at least one vector and rounded up to a whole number of vectors; it stays exact for ever, however often the read position goes around the table and whenever messages arrive.", "quantifier": "every length, vector size, input signal, delay up to the length, every history of messages, every block of an unbounded run", "why_tests_cant": "The read position is kept in step with the write position only by messages the object schedules for itself, whose order with new delays at the same time matters.", "anchors": ["hvcc/interpreters/pd2hv/libs/pd/delread~.pd", "hvcc/interpreters/pd2hv/libs/pd/delwrite~.pd", "hvcc/generators/ir2c/static/HvSignalTabread.c: sTabread_onMessage", "hvcc/generators/ir2c/static/HvSignalTabread.h: __hv_tabread_f", "hvcc/generators/ir2c/static/HvControlDelay.c"]}
{"id": "C66", "title": "metro is a metronome", "statement": "The generated code of [metro P] bangs as soon as it is started and then every P milliseconds, without end, until it is stopped; a start while it runs starts it anew (no second series of bangs remains); a number at the right inlet is the period of the bangs scheduled from then on.", "quantifier": "every period, sample rate, patch compilation order and history of messages and times", "why_tests_cant": "The next bang is scheduled by the message of the previous one; whether two series of bangs or none remain depends on the history of starts, stops and period changes, and drift is visible only in long runs.", "anchors": ["hvcc/interpreters/pd2hv/libs/pd/metro.pd", "hvcc/generators/ir2c/static/HvControlDelay.c: cDelay_onMessage", "hvcc/generators/ir2c/static/HvControlSystem.c: cSystem_onMessage", "hvcc/core/hv2ir/HeavyGraph.py"]}
{"id": "C67", "title": "delay is an alarm clock, pipe a delay line for messages", "statement": "The generated code of [delay T] bangs once, T milliseconds after the last message that set it, unless it is stopped before; setting it again before it rings cancels the first alarm. [pipe T] puts out every message unchanged, exactly once and T milliseconds after it came in, in order.", "quantifier": "every delay time, sample rate, patch compilation order and history of messages and times", "why_tests_cant": "Which messages are pending depends on the whole history; messages are lost only when eight are already waiting.", "anchors": ["hvcc/interpreters/pd2hv/libs/pd/delay.pd", "hvcc/interpreters/pd2hv/libs/pd/pipe.pd", "hvcc/generators/ir2c/static/HvControlDelay.c: cDelay_onMessage", "hvcc/generators/ir2c/static/HvMessageQueue.c: mq_addMessageByTimestamp"]}
{"id": "C68", "title": "makenote ends every note it begins", "statement": "The generated code of [makenote V D] puts out, for every pitch it receives while the velocity is not 0, the note at once and its note-off (velocity 0, same pitch) exactly D milliseconds later; each note is ended exactly once, none hangs, whatever the order in which pitches, velocities and durations arrive; the velocity leaves the right outlet before the pitch leaves the left one.", "quantifier": "every velocity, duration, sample rate and history of messages and times", "why_tests_cant": "Which note-offs are pending depends on the whole history of overlapping notes; a note hangs only when eight are already sounding.", "anchors": ["hvcc/interpreters/pd2hv/libs/pd/makenote.pd", "hvcc/interpreters/pd2hv/libs/pd/pipe.pd", "hvcc/generators/ir2c/static/HvControlDelay.c: cDelay_onMessage"]}
{"id": "C69", "title": "timer, change, int, moses, spigot, swap, stripnote and until do what they say", "statement": "The generated code of the library objects reacts to every message of every history as documented: timer gives the milliseconds since it was last started; change lets a number pass only if it differs from the last; int cuts towards zero; moses sends numbers below its bound left and the others right; spigot lets messages pass unchanged while its gate is not 0; swap exchanges; stripnote removes note-offs; until gives n bangs for n. They schedule nothing and never get stuck.", "quantifier": "every argument, sample rate and history of messages and times", "why_tests_cant": "Each is a patch of several objects whose order of execution decides the result, and each keeps state, so that wrong results appear only after particular histories.", "anchors": ["hvcc/interpreters/pd2hv/libs/pd/timer.pd", "hvcc/interpreters/pd2hv/libs/pd/change.pd", "hvcc/interpreters/pd2hv/libs/pd/int.pd", "hvcc/interpreters/pd2hv/libs/pd/moses.pd", "hvcc/interpreters/pd2hv/libs/pd/spigot.pd", "hvcc/interpreters/pd2hv/libs/pd/swap.pd", "hvcc/interpreters/pd2hv/libs/pd/stripnote.pd", "hvcc/interpreters/pd2hv/libs/pd/until.pd"]}
{"id": "C70", "title": "line draws straight lines", "statement": "After the message [T r( the generated code of [line v g] puts out, one grain apart, the values on the straight line from where it was to T that is r milliseconds long, then T, and then nothing, whatever has been sent before; set and stop end a ramp at once; a ramp whose length is not given uses the one last sent to the second inlet, once.", "quantifier": "every argument, sample rate and history of messages and times", "why_tests_cant": "The values depend on the whole history of targets, lengths, grains and of the times at which they arrive.", "anchors": ["hvcc/interpreters/pd2hv/libs/pd/line.pd", "hvcc/interpreters/pd2hv/libs/pd/metro.pd", "hvcc/generators/ir2c/static/HvControlDelay.c: cDelay_onMessage"]}
{"id": "C71", "title": "poly hands out voices", "statement": "What the generated code of [poly n s] puts out, whatever is sent to it, never starts a voice that sounds and never ends one with another pitch than the one it was started with (unless clear is used); voices are numbered 1 to n; a note is played as long as a voice is silent, on the one that has been silent for longest; if all sound, it is ignored (s = 0) or the voice that has been sounding for longest is ended and gets it; a note of velocity 0 ends the oldest voice with that pitch; stop ends all voices.", "quantifier": "every number of voices, stealing flag and history of messages", "why_tests_cant": "The allocation depends on the whole history of notes; the numbering of changes wraps only after 65535 of them.", "anchors": ["hvcc/interpreters/pd2hv/libs/pd/poly.pd", "hvcc/interpreters/pd2hv/libs/pd/until.pd", "hvcc/interpreters/pd2hv/libs/pd/tabread.pd", "hvcc/interpreters/pd2hv/libs/pd/tabwrite.pd"]}
{"id": "C72", "title": "MIDI objects read and send MIDI messages", "statement": "With the generated plugin wrapper, every MIDI channel message of a block of events of the host comes out of the matching object ([notein], [polytouchin], [ctlin], [bendin], [touchin], [pgmin]) with its data and with channel and program counted from 1, right outlet first, and with a channel (or controller) as argument only if it is the right one; and numbers at the inlets of [noteout], [polytouchout], [ctlout], [bendout], [touchout], [pgmout] send exactly the bytes of the matching MIDI message, with the channel that came last or else the argument, whatever came before.", "quantifier": "every argument, every block of host events with channel messages, every history of numbers at the inlets", "why_tests_cant": "The message goes through the wrapper, hashes of receiver names and a patch of up to 120 objects whose state depends on the arguments and on messages before.", "anchors": ["hvcc/interpreters/pd2hv/libs/pd/notein.pd", "hvcc/interpreters/pd2hv/libs/pd/ctlin.pd", "hvcc/interpreters/pd2hv/libs/pd/polytouchin.pd", "hvcc/interpreters/pd2hv/libs/pd/bendin.pd", "hvcc/interpreters/pd2hv/libs/pd/touchin.pd", "hvcc/interpreters/pd2hv/libs/pd/pgmin.pd", "hvcc/interpreters/pd2hv/libs/pd/noteout.pd", "hvcc/interpreters/pd2hv/libs/pd/ctlout.pd", "hvcc/interpreters/pd2hv/libs/pd/polytouchout.pd", "hvcc/interpreters/pd2hv/libs/pd/bendout.pd", "hvcc/interpreters/pd2hv/libs/pd/touchout.pd", "hvcc/interpreters/pd2hv/libs/pd/pgmout.pd", "hvcc/generators/c2dpf/templates/HeavyDPF.cpp"]}
{"id": "C73", "title": "Parameters of a patch are the parameters of the plugin", "statement": "If hvcc accepts a patch, the input parameters of the generated plugin are exactly the names written [r name @hv_param min max default type], each once and with the range written there, and the output parameters exactly the names written [s name @hv_param ...]; the default is in the range. After every history of calls the host reads from an input parameter what it set last (else the default), the patch - the one that runs now, also after a change of the sample rate - got the same value last at [r name], and the host reads from an output parameter the number the patch sent last. getParameterInfo of the context lists exactly the names with @hv_param and @hv_event.", "quantifier": "every set of receive and send objects in a patch; every history of set, sample rate change and messages of the patch", "why_tests_cant": "Names, ranges, enumerators, hashes and indices go through six dictionaries and templates, for any number of parameters; histories are unbounded.", "anchors": ["hvcc/interpreters/pd2hv/PdReceiveObject.py", "hvcc/interpreters/pd2hv/PdSendObject.py", "hvcc/core/hv2ir/HeavyGraph.py:group_control_receivers", "hvcc/compiler.py", "hvcc/generators/c2dpf/templates/HeavyDPF.cpp", "hvcc/generators/c2dpf/templates/HeavyDPF.hpp", "hvcc/generators/ir2c/templates/Heavy_NAME.cpp"]}
{"id": "C74", "title": "Signal functions of the library compute the functions they are named after", "statement": "Whatever signal is at the inlet, [cos~] gives the cosine of 2 pi x up to 0.000005, [osc~] the cosine of its phase up to 0.00075 and never more than 1, [wrap~] the fractional part, [clip~] the signal bounded by the numbers that came last, [sqrt~] the square root (0 for negative signals), [mtof~] and [dbtorms~], [dbtopow~] the frequency and the amplitude up to a ten-millionth (two ten-millionths) of it, [ftom~] the pitch up to a billionth, [rmstodb~] and [powtodb~] the decibels, never below 0.", "quantifier": "every real signal at the inlets, every history of messages at the control inlets, every time", "why_tests_cant": "The objects are patches that approximate by polynomials and rounded constants; that the error is small for every real number is a statement of analysis.", "anchors": ["hvcc/interpreters/pd2hv/libs/pd/cos~.pd", "hvcc/interpreters/pd2hv/libs/pd/osc~.pd", "hvcc/interpreters/pd2hv/libs/pd/wrap~.pd", "hvcc/interpreters/pd2hv/libs/pd/clip~.pd", "hvcc/interpreters/pd2hv/libs/pd/sqrt~.pd", "hvcc/interpreters/pd2hv/libs/pd/mtof~.pd", "hvcc/interpreters/pd2hv/libs/pd/ftom~.pd", "hvcc/interpreters/pd2hv/libs/pd/dbtorms~.pd", "hvcc/interpreters/pd2hv/libs/pd/dbtopow~.pd", "hvcc/interpreters/pd2hv/libs/pd/rmstodb~.pd", "hvcc/interpreters/pd2hv/libs/pd/powtodb~.pd", "hvcc/interpreters/pd2hv/libs/pd/exp~.pd", "hvcc/interpreters/pd2hv/libs/pd/sig~.pd"]}
{"id": "C75", "title": "Filters of the library compute their difference equations and are stable", "statement": "For every signal and every history of cutoff numbers, [lop~] gives y(n) = k x(n) + (1-k) y(n-1) and [hip~] the corresponding high pass, where k is computed from the last frequency and always lies between 0 and 1; the output of [lop~] never exceeds the largest absolute input, and for a constant input with an unchanged cutoff it converges to that input ([hip~] to 0). [rpole~], [rzero~], [rzero_rev~], [cpole~], [czero~], [czero_rev~] compute the recursions of their coefficients. [biquad~ fb1 fb2 ff1 ff2 ff3] computes y(n) = ff1 x(n) + ff2 x(n-1) + ff3 x(n-2) + fb1 y(n-1) + fb2 y(n-2) with the coefficients that came last at each place of a list (of any length), or the arguments; [bp~] and [vcf~] compute the recursions of the frequency and the q that came last.", "quantifier": "every real signal, every history of frequencies at the control inlet, every time", "why_tests_cant": "Stability and convergence of a recursive filter speak about unbounded times and all inputs.", "anchors": ["hvcc/interpreters/pd2hv/libs/pd/lop~.pd", "hvcc/interpreters/pd2hv/libs/pd/hip~.pd", "hvcc/interpreters/pd2hv/libs/pd/rpole~.pd", "hvcc/interpreters/pd2hv/libs/pd/rzero~.pd", "hvcc/interpreters/pd2hv/libs/pd/rzero_rev~.pd", "hvcc/interpreters/pd2hv/libs/pd/cpole~.pd", "hvcc/interpreters/pd2hv/libs/pd/czero~.pd", "hvcc/interpreters/pd2hv/libs/pd/czero_rev~.pd"]}
{"id": "C76", "title": "phasor~ and osc~ have the frequency they are told", "statement": "With a frequency f and sample rate r (|f| < r/2), for every history of frequency and phase messages and at every sample n, the output of [phasor~] is, modulo whole turns, within (n+1)/2^32 + 2^-23 of the exact phase (the sum of f/r since the last phase message, plus that phase); the same for a frequency signal. [osc~] is within 0.00075 plus 2 pi times that error of the cosine of the exact phase.", "quantifier": "every sample rate, frequency below half of it, history of messages, frequency signal and sample number", "why_tests_cant": "A drift shows only after arbitrarily many samples; all rational frequencies and rates are covered.", "anchors": ["hvcc/generators/ir2c/static/HvSignalPhasor.c: sPhasor_updatePhase, sPhasor_init, sPhasor_onMessage, sPhasor_k_updateFrequency, sPhasor_k_updatePhase", "hvcc/generators/ir2c/static/HvSignalPhasor.h: __hv_phasor_f, __hv_phasor_k_f", "hvcc/interpreters/pd2hv/libs/pd/osc~.pd"]}
{"id": "C77", "title": "noise~ is the stated linear congruential sequence", "statement": "After a seed k every lane i of every later block b is (k+i) * 16807^(b+1) modulo 2^32, taken as a signed number, times 4.65661e-10; so it stays in (-1, 1) and a lane repeats exactly with period 2^(29-t) blocks, where 2^t is the power of two in k+i.", "quantifier": "every vector width, seed, history of seed messages and number of blocks", "why_tests_cant": "The period is about a statement over all distances of blocks; range and values over all seeds.", "anchors": ["hvcc/interpreters/pd2hv/libs/pd/noise~.pd", "hvcc/generators/ir2c/static/HvSignalVar.c: sVari_update", "hvcc/generators/ir2c/static/HvMath.h: __hv_mul_i, __hv_cast_if"]}
{"id": "C78", "title": "Table readers stay in the table and interpolate", "statement": "For every position signal and every table of n entries, [tabread4~] gives the linear interpolation at the position restricted to 0...n-2, [tabread~] the entry at the position (cut or rounded, by back end) restricted to 0...n-1, [tabosc4~] the interpolation at phase times n-2; the indices used are always those of entries of the table, provided the size last asked for is the size now.", "quantifier": "every table, size, position signal and time", "why_tests_cant": "All real positions and all sizes; memory safety has no failing example to test for.", "anchors": ["hvcc/interpreters/pd2hv/libs/pd/tabread4~.pd", "hvcc/interpreters/pd2hv/libs/pd/tabread~.pd", "hvcc/interpreters/pd2hv/libs/pd/tabosc4~.pd", "hvcc/generators/ir2c/static/HvSignalTabread.h: __hv_tabread_if"]}
{"id": "C79", "title": "The small control objects of the Pd library compute their functions", "statement": "For every history of messages at its inlets the generated code of [mtof], [ftom], [dbtorms], [rmstodb], [dbtopow], [powtodb], [wrap], [exp], [sqrt], [clip], [div], [tgl] and [tabread] sends exactly one message per triggering message, with the stated function of the numbers received last: 440*2^((m-69)/12) and its inverse, 10^((d-100)/20) and its inverse, the fractional part, the number restricted to the two bounds, the quotient, the other state, the table entry nearest to the index; up to the error of the C library's powf, expf, logf and sqrtf.", "quantifier": "every history of messages, object arguments, table contents and C math library within an error", "why_tests_cant": "All histories of messages in all orders, all numbers, and every library of the stated accuracy.", "anchors": ["hvcc/interpreters/pd2hv/libs/pd/mtof.pd", "hvcc/interpreters/pd2hv/libs/pd/ftom.pd", "hvcc/interpreters/pd2hv/libs/pd/dbtorms.pd", "hvcc/interpreters/pd2hv/libs/pd/clip.pd", "hvcc/interpreters/pd2hv/libs/pd/div.pd", "hvcc/interpreters/pd2hv/libs/pd/tgl.pd", "hvcc/interpreters/pd2hv/libs/pd/tabread.pd", "hvcc/generators/ir2c/static/HvControlUnop.c", "hvcc/generators/ir2c/static/HvControlBinop.c"]}
{"id": "C80", "title": "The stability check of the biquad accepts exactly the stable filters", "statement": "The debug check of the biquad's feedback coefficients passes exactly if both poles lie inside the unit circle, which is the case exactly for |a1| < 1 + a2 and a2 < 1.", "quantifier": "all real coefficients", "why_tests_cant": "A statement about all pairs of real coefficients; it is wrong on a half line (a2 = 0, a1 <= 0), which tests with generic coefficients never meet.", "anchors": ["hvcc/generators/ir2c/static/HvSignalBiquad.c: sBiquad_k_init, sBiquad_k_onMessage, sBiquad_k_updateCoefficients (__hv_biquad_k_debug)"]}
{"id": "C81", "title": "Cables whose type is left open get the only consistent type, and operators hear all their inlets", "statement": "Objects that can work on signals and on messages take the kind of what arrives at their left inlet: if compilation reports no error, every cable behind an object without incoming cables has a definite type, that of its outlet or else the one that follows from the cables at the left inlet of the object it comes from; without loops this choice is unique. A Pd signal operator computes, for every patch, from the sum of the signals at each inlet, or without signals from the last number received there, at first 0 at the left and its argument at the right.", "quantifier": "every patch, every history of messages and all signals", "why_tests_cant": "All graphs of all sizes and object orders; the failing shapes (two open operators meeting in a third, loops) are rare in test patches.", "anchors": ["hvcc/interpreters/pd2hv/PdGraph.py: add_parsed_connection, validate_configuration", "hvcc/interpreters/pd2hv/PdBinopObject.py: validate_configuration, convert_ctrl_to_sig_connections_at_inlet", "hvcc/core/hv2ir/HeavyGraph.py: _resolve_connection_types", "hvcc/core/hv2ir/HeavyLangObject.py: _resolve_connection_types, _resolved_outlet_type"]}
{"id": "C82", "title": "The patch hears and plays the host's samples, in place and in blocks of any size", "statement": "A host may give the patch the same buffers for input and output (as Pd, OWL and Wwise do): the outputs are those of the input samples before the call, and nothing else in memory changes. If all blocks are whole vectors and no messages come in between, the output does not depend on how the host divides the time into blocks. The Pd external connects inlet i and outlet j to input i and output j. An input that is disconnected in the web page is silent.", "quantifier": "every patch, all buffers that are equal or disjoint, all inputs, every sequence of block sizes, every sequence of connections in the browser", "why_tests_cant": "All block sizes, buffer layouts and histories of calls; a test host has one block size and separate buffers.", "anchors": ["hvcc/generators/ir2c/templates/Heavy_NAME.cpp: process, processInline", "hvcc/generators/c2pdext/templates/pd_external.c: perform, dsp", "hvcc/generators/c2owl/templates/HeavyOwl.hpp: processAudio", "hvcc/generators/c2wwise/templates/SoundEnginePlugin/{{name}}{{plugin_type}}.cpp: Execute", "hvcc/generators/c2dpf/templates/HeavyDPF.cpp: run", "hvcc/generators/c2js/template/hv_worklet.js: process"]}
{"id": "C83", "title": "Messages cross between a host and the patch unchanged", "statement": "hv_sendBangToReceiver, hv_sendFloatToReceiver, hv_sendSymbolToReceiver, hv_sendMessageToReceiver and hv_sendMessageToReceiverV put a record into the queue that holds the receiver's hash, the time and exactly the given elements, texts included: the caller's strings may be freed as soon as the call returns. Processing the record schedules exactly that message. The Pure Data external sends the arguments of a Pd message (or a bang) to the receiver with the name of its selector, and puts out what the patch sends to HV_TO_PD as the same floats, symbols and lists: what comes in can go out unchanged. hv_getNextSentMessage gives the destination and the elements of the oldest message sent.", "quantifier": "every message, text, address and memory content", "why_tests_cant": "All lists, texts and memory layouts; whether a text is copied or only pointed to shows only when the memory is reused.", "anchors": ["hvcc/generators/ir2c/static/HeavyContext.cpp: defaultSendHook, sendBangToReceiver, sendFloatToReceiver, sendSymbolToReceiver, sendMessageToReceiverV, sendMessageToReceiver, getNextSentMessage", "hvcc/generators/c2pdext/templates/pd_external.c: sendHook, onMessage", "hvcc/generators/c2js/template/hv_worklet.js: setSendHook"]}
{"id": "C84", "title": "[print] shows the elements of the message, separated by spaces", "statement": "For every message the text given to the print hook is its elements (bang, the float as %g, the symbol, the hash as 0x%X) separated by single spaces, terminated, in exactly as many bytes as were allocated. The hooks of the OWL and Daisy targets show the first 48 bytes of the label, a space and the text if all of it fits into 64 bytes, and write nothing outside their buffer.", "quantifier": "every message, label, text and memory content", "why_tests_cant": "All lengths of labels and texts around the buffer size, and every mix of elements.", "anchors": ["hvcc/generators/ir2c/static/HvMessage.c: msg_toString", "hvcc/generators/ir2c/static/HvControlPrint.c: cPrint_onMessage", "hvcc/generators/c2owl/templates/HeavyOwl.hpp: owlPrintHook", "hvcc/generators/c2daisy/templates/HeavyDaisy.cpp: printHook", "hvcc/generators/c2dpf/templates/HeavyDPF.cpp: hvPrintHookFunc"]}
{"id": "C85", "title": "[tabplay~] plays the part of the table that was asked for", "statement": "After every history of messages and audio, [tabplay~ name] plays the table chosen last: a bang plays it from the beginning, a number from there (restricted to the table, rounded down to a whole vector), two numbers the given count of samples from there (rounded up to whole vectors); then exactly one bang leaves the right outlet and the output is silent until the next message. stop silences it at once without a bang; set n continues at the beginning of table n.", "quantifier": "every array, every history of messages, every number of audio vectors, every SIMD width", "why_tests_cant": "All positions and lengths around the ends of the table and of the vectors, in all orders of messages.", "anchors": ["hvcc/interpreters/pd2hv/libs/pd/tabplay~.pd", "hvcc/generators/ir2c/static/HvSignalTabread.c: sTabread_stoppable_onMessage", "hvcc/generators/ir2c/static/HvSignalTabread.h: __hv_tabread_stoppable_f"]}
{"id": "C86", "title": "[tabwrite~] records its input into the table and stops at its end", "statement": "After every history, a bang (or start p) at [tabwrite~ name] stores the input into the table chosen last, from sample 0 (or p) on, vector after vector, until the table is full, and changes nothing else; then it stores nothing more until the next message. stop ends the recording. Whatever is sent and however long the program runs, nothing is stored outside the memory of the tables, as long as a smaller table is not chosen during a recording.", "quantifier": "every array, sample rate, history of messages and audio, SIMD width", "why_tests_cant": "The end of a recording is a message in the queue, computed from size, position and sample rate: all positions, times and restarts matter.", "anchors": ["hvcc/interpreters/pd2hv/libs/pd/tabwrite~.pd", "hvcc/generators/ir2c/static/HvSignalTabwrite.c: sTabwrite_onMessage", "hvcc/generators/ir2c/static/HvSignalTabwrite.h: __hv_tabwrite_stoppable_f", "hvcc/generators/ir2c/static/HvControlDelay.c: cDelay_onMessage"]}
{"id": "C87", "title": "the generated program plays the signals of the patch, from the operators of the patch to the output channels", "statement": "A patch of arithmetic operators, send~, receive~, throw~, catch~, adc~, dac~ and arbitrary signal and control objects, without a loop of connections through signals, compiles; and for all input, all messages, whatever the objects do and whatever the buffers hold, the program plays in every block, sample by sample, the signals that the patch sends to dac~: the sum of what is connected to each channel, every operator applied to the sums at its inlets, a number that is sent to the right inlet of an operator holding from then on, every receive~ yielding the sum of what is sent under its name, at once or, where the read runs before the write in the process list, exactly one block later; it does so wherever the receive~ leads to the send~ in the reduced graph, so that every patch has such signals, also with feedback. Every other signal object gets in every block the signals that the patch has at its inlets, and is run exactly once if there are no loops.", "quantifier": "every such patch, input, history of messages, behaviour of the other objects, number of blocks, block size", "why_tests_cant": "Six passes of the compiler rewrite the graph one after the other and then buffers are shared; only a proof shows for all graphs that what reaches the output after all of them is still what the patch says.", "anchors": ["hvcc/core/hv2ir/HeavyGraph.py: prepare, remap_send_receive, cascade_expansion, fma_replacement, order_signal_objects, assign_signal_buffers", "hvcc/generators/ir2c/static/HvSignalVar.h: __hv_varread_f, __hv_varwrite_f", "hvcc/core/hv2ir/HLangBinop.py: reduce", "hvcc/core/hv2ir/HLangUnop.py: reduce", "hvcc/core/hv2ir/HLangVar.py: reduce", "hvcc/generators/ir2c/templates/Heavy_NAME.cpp: process"]}
{"id": "C88", "title": "number boxes, sliders, buttons, float and symbol", "statement": "A [float], [symbol], number box, slider or radio button holds the last number or name that came to it (at the beginning its argument, or 0): what comes to the left inlet is also passed on at once and unchanged, what comes to the right inlet is not, and a bang at the left inlet gives what is held; a [bng] gives one bang for every message; [abs] the absolute value of every number; all at the time of the message, nothing is left for later, and none of them ever gets stuck.", "quantifier": "every history of messages and times, every argument, every program compiled from the library patches", "why_tests_cant": "What is held depends on the whole history of messages to both inlets.", "anchors": ["hvcc/interpreters/pd2hv/libs/pd/float.pd, symbol.pd, floatatom.pd, symbolatom.pd, nbx.pd, hsl.pd, vsl.pd, hradio.pd, vradio.pd, bng.pd, abs.pd", "hvcc/generators/ir2c/static/HvControlVar.c: cVar_onMessage", "hvcc/interpreters/pd2hv/PdParser.py: graph_from_canvas (floatatom)"]}
{"id": "C89", "title": "unconnected inlets of subpatches are forgotten without a change for anybody", "statement": "The compiler removes exactly those connections inside subpatches and abstractions, at any depth, that leave an inlet that nothing reaches - nothing but other such inlets is connected to it from outside; the other connections keep their order. Whatever signals or messages leave the outlets, they fit the connections that are left exactly if they fit the original ones, and every inlet of every object gets the same sum of signals, the same messages.", "quantifier": "every tree of subpatches with any inlets and connections that do not leave a graph, everything the objects may give out", "why_tests_cant": "A test has a few nested patches; the pass changes the graphs from the outside to the inside while it asks what is connected, so that only induction over the tree shows that nothing is removed too early or left over.", "anchors": ["hvcc/core/hv2ir/HeavyGraph.py: prepare, _remove_unused_inlet_connections, disconnect_objects, connect_objects, add_object"]}
{"id": "C90", "title": "the canvases of a Pd file are read with their boxes, cables and arguments as Pd writes them", "statement": "The file that Pd writes for a patch is read as this patch: every canvas, at any depth of subpatches, gets its own boxes with the numbers that Pd gives them (comments, empty and ignored objects count, the statements for resized boxes and array data do not; a subpatch and a Heavy object are one box), the cables of a canvas join the boxes with these numbers, in the order of the file; the @hv_arg comments of the file's own canvas are its arguments, in order.", "quantifier": "every tree of canvases with any boxes, cables between existing boxes and comments, no canvas with the same #N canvas line as one around it", "why_tests_cant": "A test reads a few files; one box that is not counted, or a subpatch that ends too early, shifts all cables after it, and the arguments are collected in a second pass over the file that must follow the nesting.", "anchors": ["hvcc/interpreters/pd2hv/PdParser.py: __get_hv_args, graph_from_file, graph_from_canvas", "hvcc/interpreters/pd2hv/PdGraph.py: add_object, add_parsed_connection"]}
{"id": "C91", "title": "[samplerate~], [loadbang], [bang~], [midirealtimein] and [midiin] tell what happens in the system", "statement": "[samplerate~] answers every message with the sample rate of the context and says nothing else; [loadbang] gives one bang, when the program starts; [bang~] gives one bang for every call of process that has another one before it (at the time of the beginning of the call before), one when the program starts, and none for what comes to its inlet; [midirealtimein] and [midiin] give, for each message of the host, first the port out of the right outlet and then the byte out of the left one, [midiin] counts ports from 1.", "quantifier": "every sample rate, every sequence of messages and of calls of process of any sizes, every generated program for these objects", "why_tests_cant": "How many bangs come, and when, depends on the whole sequence of calls; a test runs a few calls of one size.", "anchors": ["hvcc/interpreters/pd2hv/libs/pd/samplerate~.pd", "hvcc/interpreters/pd2hv/libs/pd/loadbang.pd", "hvcc/interpreters/pd2hv/libs/pd/bang~.pd", "hvcc/interpreters/pd2hv/libs/pd/midirealtimein.pd", "hvcc/interpreters/pd2hv/libs/pd/midiin.pd", "hvcc/generators/ir2c/static/HvControlSystem.c: cSystem_onMessage", "hvcc/generators/ir2c/templates/Heavy_NAME.cpp: process"]}
{"id": "C92", "title": "[sin], [cos], [tan], [atan], [log] compute functions of numbers and [tabwrite] writes into its array", "statement": "[sin], [cos], [tan], [atan] answer a number with the value that the C library's function has for it, [log] with the logarithm of a positive number and with 0 otherwise; nothing else makes them speak. [tabwrite] writes every number at its left inlet at the place given last at the right inlet (rounded down; a place that the array does not have is ignored), the first one at the beginning if no place was given; it changes nothing else, no other array, and not the size of the array.", "quantifier": "every sequence of messages, every number, every array, every generated program for these objects", "why_tests_cant": "Which element is written depends on everything that came to the right inlet before; a test tries a few places.", "anchors": ["hvcc/interpreters/pd2hv/libs/pd/sin.pd", "hvcc/interpreters/pd2hv/libs/pd/cos.pd", "hvcc/interpreters/pd2hv/libs/pd/tan.pd", "hvcc/interpreters/pd2hv/libs/pd/atan.pd", "hvcc/interpreters/pd2hv/libs/pd/log.pd", "hvcc/interpreters/pd2hv/libs/pd/tabwrite.pd", "hvcc/generators/ir2c/static/HvControlUnop.c: cUnop_onMessage", "hvcc/generators/ir2c/static/HvControlTabwrite.c: cTabwrite_onMessage"]}
{"id": "C93", "title": "the canvas that was read is the canvas that is compiled", "statement": "The patch is handed over from the Pd reader to the compiler in a file in which objects have names; the compiler then works on exactly the boxes that were read, without the comments, in their order, and every outlet and every inlet has exactly the cables that were read, in the order of the Pd file (the order in which messages go out, C45).", "quantifier": "every canvas with any number of boxes, lets and cables between different boxes, whose boxes got different names", "why_tests_cant": "Objects are found by name and a comment must not shift anything; one cable in a wrong order shows only in patches that depend on the order.", "anchors": ["hvcc/interpreters/pd2hv/PdGraph.py: to_hv", "hvcc/interpreters/pd2hv/Connection.py: to_hv", "hvcc/core/hv2ir/HeavyParser.py: graph_from_object", "hvcc/core/hv2ir/HeavyGraph.py: connect_objects, add_object", "hvcc/core/hv2ir/HeavyLangObject.py: add_connection"]}
{"id": "C94", "title": "messages to a signal box get there, all of them, and in the order of the patch", "statement": "A box of the library that works on signals (abs~, clip~, cos~, lop~, hip~, mtof~ and so on) and that gets only messages at its first inlet hears the last number received, at first 0; with signals it hears their sum. Every message still gets to the same inlets as in the patch, once for every cable, and in the order of the cables in the Pd file.", "quantifier": "every canvas with any number of boxes, operators and library boxes, and cables; every history of messages and all signals", "why_tests_cant": "The objects that are put in between change the list of cables while it is walked through; a changed order shows only where two messages meet again in the same box.", "anchors": ["hvcc/interpreters/pd2hv/PdLibSignalGraph.py: validate_configuration", "hvcc/interpreters/pd2hv/PdBinopObject.py: validate_configuration, convert_ctrl_to_sig_connections_at_inlet", "hvcc/interpreters/pd2hv/PdGraph.py: validate_configuration, add_object", "hvcc/interpreters/pd2hv/PdParser.py: graph_from_canvas"]}
{"id": "C95", "title": "[trigger] sends what its arguments say, from right to left", "statement": "A [trigger] is accepted exactly if every argument is a number or one of a, b, f, s; without arguments it has two outlets for bangs. For a number or a list that begins with a number every outlet sends once, from right to left: a the message as it is, b a bang, f and numbers the first number, s the word float. For a bang a and b send a bang, s a word and f the number 0.", "quantifier": "every list of arguments and every message that is a bang, a number or a list that begins with a number", "why_tests_cant": "All lists of arguments of any length and all messages; the casts are made in three places that have to agree.", "anchors": ["hvcc/interpreters/pd2hv/PdTriggerObject.py: __init__", "hvcc/core/hv2ir/HLangSequence.py: reduce", "hvcc/generators/ir2c/static/HvControlCast.c: cCast_onMessage"]}
{"id": "C96", "title": "[table name n] is an array with n places", "statement": "[table name n] is, for every whole number n, an array of this name with exactly n places that hold 0; without n it has 100 places as in Pd. A host finds it by its name exactly if the third argument is @hv_table. A missing name is reported as an error.", "quantifier": "every name, every size that fits into memory, every list of arguments, every SIMD width", "why_tests_cant": "All sizes and SIMD widths; arguments that cannot be read are passed over in silence, so that a test sees only a table that works.", "anchors": ["hvcc/interpreters/pd2hv/PdTableObject.py: __init__, to_hv", "hvcc/core/hv2ir/HLangTable.py: __init__", "hvcc/generators/ir2c/HeavyTable.py: get_C_init", "hvcc/generators/ir2c/static/HvTable.c: hTable_init"]}
{"id": "C97", "title": "the channels of a program are those of the patch", "statement": "A compiled program has as many inputs (outputs) as the largest channel number of an adc~ (dac~) anywhere in the patch, in subpatches of any depth, and none without adc~ (dac~); every channel from 1 on that is used has its own buffer, which the program declares and exchanges with the host.", "quantifier": "every patch with subpatches of any depth and number, every list of channels", "why_tests_cant": "A channel that is used only deep inside must be counted; a buffer that is not declared shows only when that program is compiled.", "anchors": ["hvcc/interpreters/pd2hv/PdAudioIoObject.py: to_hv", "hvcc/core/hv2ir/HeavyGraph.py: add_object, get_input_channel_set, get_output_channel_set, to_ir", "hvcc/core/hv2ir/HLangAdc.py: reduce", "hvcc/core/hv2ir/HLangDac.py: reduce", "hvcc/generators/ir2c/templates/Heavy_NAME.cpp: process"]}
{"id": "C98", "title": "an error anywhere in a patch stops the compilation", "statement": "The compilation of a patch stops after it was read exactly when an error was added to the patch itself or to some box in it, at whatever depth of subpatches; the report then has exactly the errors that were added (internal exceptions only if there is no other error) and exactly the warnings that were added.", "quantifier": "every patch with any tree of boxes and subpatches and any errors and warnings at them", "why_tests_cant": "The place of the error is any place in a tree without bound; a test has an error in one or two of them.", "anchors": ["hvcc/interpreters/pd2hv/PdObject.py: add_error, add_warning, get_notices", "hvcc/interpreters/pd2hv/PdGraph.py: get_notices", "hvcc/interpreters/pd2hv/PdParser.py: graph_from_file", "hvcc/interpreters/pd2hv/pd2hv.py: compile"]}
{"id": "C99", "title": "the exit status tells whether something failed", "statement": "hvcc exits with 0 exactly when its arguments are right, the reader, the reader for the GUI, the compiler, the C writer and every generator that ran have succeeded and no two exposed names conflict, else with 1; a generator runs exactly when it was asked for and reader, compiler and C writer have succeeded.", "quantifier": "every outcome of every stage, every list of generators and of generator modules with names of their own", "why_tests_cant": "Every combination of failing stages and generators counts, with any number of modules; tests look at the results of single stages.", "anchors": ["hvcc/compiler.py: compile_dataflow, add_error, check_extern_name_conflicts, load_ext_generator", "hvcc/main.py: main"]}
