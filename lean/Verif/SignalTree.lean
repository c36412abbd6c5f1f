import Verif.Signal
/-!
The signal half of the compiler for patches with subpatches: `HeavyGraph.assign_signal_buffers` and `order_signal_objects`,
hvcc/core/hv2ir/HeavyGraph.py:787-855, with `does_process_signal` of graphs.

All objects of all graphs are named by different numbers; a graph is itself an object of the graph it is in, with inlets and
outlets.  An inlet object (`__inlet`) has no inlets and one outlet, an outlet object (`__outlet`) one inlet and no outlets;
neither processes a signal.  What `[adc~]` is reduced to is an `__inlet` object with an index above 127 and a preset buffer
(HLangAdc.py:49-54): it is known here by that buffer, and not listed in `ins`.

Left out: connections from the receivers that `group_control_receivers` moves to the root graph.  They come from objects
without inlets that process no signal, so they add nothing to the filtered order.
-/
namespace Verif.Signal

/-- a graph: `objs`, `inlet_objs` (each with the number of signal connections of its outlet), `outlet_objs` -/
structure Sub where
  ids : List Nat
  ins : List (Nat × Nat)
  outs : List Nat

/-- all objects; those that are graphs; a bound for the nesting of graphs (Python recurses without one) -/
structure Tree where
  obj : Nat → Obj
  sub : Nat → Option Sub
  depth : Nat

/-- an `__inlet` that `[adc~]` was reduced to, HLangAdc.py:49-54 -/
def isAdc (o : Obj) : Bool := o.outlets.any fun l => match l.preset with
  | .input _ => true
  | _ => false

/-- `does_process_signal`, HeavyIrObject.py:104-108, HeavyGraph.py:787-792; the first argument bounds the nesting -/
def Tree.processes (T : Tree) : Nat → Nat → Bool
  | 0, o => (T.obj o).signal
  | f + 1, o =>
    match T.sub o with
    | none => (T.obj o).signal
    | some s => s.ids.any (T.processes f) || s.ids.any fun x => isAdc (T.obj x)

/-- `does_process_signal` -/
def Tree.sig (T : Tree) (o : Nat) : Bool := T.processes T.depth o

/-- the objects of one graph, as `order_signal_objects` sees them -/
def Tree.level (T : Tree) (s : Sub) : Graph := ⟨s.ids, fun o => { T.obj o with signal := T.sig o }⟩

/-- `retain_buffer`, BufferPool.py:65-78 -/
def retain (st : St) (b : Buf) (d : Int) : Except Err St :=
  match b with
  | .zero => .ok st
  | .input _ => .ok st
  | .output _ => .error .keyError
  | .tmp t i =>
    match change (st.pool t) i d with
    | some p => .ok (st.setPool t p)
    | none => .error .notFound

/-- the buffer of outlet `s` becomes the buffer of outlet `d`, which has `n` readers: HeavyGraph.py:823-834, 846-851 -/
def share (st : St) (s d : Nat × Nat) (n : Nat) : Except Err St :=
  retain (st.setOut d.1 d.2 (st.out s.1 s.2)) (st.out s.1 s.2) ((n : Int) - 1)

/-- the signals that enter a graph, HeavyGraph.py:816-838: its inlet connections and the inlet objects from number `j` on -/
def enter : St → List Inlet → List (Nat × Nat) → Except Err St
  | st, [], _ => .ok st
  | st, l :: ls, ins =>
    match l.conns.filter (·.isSignal) with
    | [] => enter st ls ins.tail
    | [c] =>
      match ins with
      | [] => .error .keyError
      | (o, n) :: ins =>
        match share st (c.src, c.outlet) (o, 0) n with
        | .error e => .error e
        | .ok st => enter st ls ins
    | _ => .error .tooManyInputs

/-- the signal connections of an outlet object: `outlet_obj.inlet_connections[0]` -/
def Tree.outletConns (T : Tree) (oo : Nat) : List Conn :=
  match (T.obj oo).inlets with
  | [] => []
  | l :: _ => l.conns.filter (·.isSignal)

/-- the number of connections of outlet `i` of a graph -/
def Tree.fanout (T : Tree) (g i : Nat) : Nat := (((T.obj g).outlets[i]?).map (·.conns)).getD 0

/-- the signals that leave a graph from outlet `i` on, HeavyGraph.py:843-855 -/
def leave (T : Tree) (g : Nat) : St → Nat → List Nat → Except Err St
  | st, _, [] => .ok st
  | st, i, oo :: os =>
    match T.outletConns oo with
    | [] => leave T g st (i + 1) os
    | [c] =>
      match share st (c.src, c.outlet) (g, i) (T.fanout g i) with
      | .error e => .error e
      | .ok st => leave T g st (i + 1) os
    | _ => .error .tooManyInputs

/-- the loop of HeavyGraph.py:839-841 -/
def assignList (rec : St → Nat → Except Err (St × List Step)) : St → List Nat → Except Err (St × List Step)
  | st, [] => .ok (st, [])
  | st, o :: os =>
    match rec st o with
    | .error e => .error e
    | .ok (st, ss) =>
      match assignList rec st os with
      | .error e => .error e
      | .ok (st, ss') => .ok (st, ss ++ ss')

/-- `assign_signal_buffers` of an object that is no graph -/
def Tree.assignAtom (T : Tree) (st : St) (o : Nat) : Except Err (St × List Step) :=
  match assignObj ⟨[], T.obj⟩ st o with
  | .error e => .error e
  | .ok (st, x) => .ok (st, [x])

/-- `HeavyGraph.assign_signal_buffers`, HeavyGraph.py:806-855, and the process list of the graph (`get_ir_signal_list`,
HeavyGraph.py:975-976).  The first argument bounds the nesting. -/
def Tree.assignGraph (T : Tree) : Nat → St → Nat → Except Err (St × List Step)
  | 0, _, _ => .error .keyError
  | f + 1, st, g =>
    match T.sub g with
    | none => .error .keyError
    | some s =>
      match enter st (T.obj g).inlets s.ins with
      | .error e => .error e
      | .ok st =>
        match assignList (fun st o => if (T.sub o).isSome then T.assignGraph f st o else T.assignAtom st o) st
            (T.level s).signalOrder with
        | .error e => .error e
        | .ok (st, ss) =>
          match leave T g st 0 s.outs with
          | .error e => .error e
          | .ok st => .ok (st, ss)

/-- the whole patch: the root graph -/
def Tree.compile (T : Tree) (root : Nat) : Except Err (St × List Step) :=
  T.assignGraph (T.depth + 1) (Graph.init ⟨[], T.obj⟩) root

end Verif.Signal
