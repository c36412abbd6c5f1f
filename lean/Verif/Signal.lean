/-!
The signal half of the compiler `hvcc/core/hv2ir`: the order in which signal objects run (`HeavyGraph.order_signal_objects`,
`HeavyIrObject.get_parent_order`) and the assignment of buffers (`BufferPool`, `HeavyIrObject.assign_signal_buffers`), for one
graph without subgraphs, after `cascade_expansion`.

Objects are named by numbers.  Python's recursion limit is not modelled.
-/
namespace Verif.Signal

/-- `"~f>"` or `"~i>"` -/
inductive Ty
  | f | i
  deriving DecidableEq, Repr

/-- a buffer: `("zero", 0)`, `("input", c)`, `("output", c)` or `(type, index)` -/
inductive Buf
  | zero
  | input (c : Nat)
  | output (c : Nat)
  | tmp (t : Ty) (n : Nat)
  deriving DecidableEq, Repr

/-- `Connection`, Connection.py:24-52, as seen from its inlet -/
structure Conn where
  src : Nat
  outlet : Nat
  isSignal : Bool
  deriving DecidableEq, Repr

/-- an inlet: its connections and the initial value of `inlet_buffers` (HeavyIrObject.py:69; HLangDac.py:48) -/
structure Inlet where
  conns : List Conn
  preset : Buf
  deriving DecidableEq, Repr

/-- an outlet: its type (`none` for control), the number of its connections, and the initial value of `outlet_buffers`
(HeavyIrObject.py:70; HLangDac.py:49; HLangAdc.py:54) -/
structure Outlet where
  ty : Option Ty
  conns : Nat
  preset : Buf
  deriving DecidableEq, Repr

/-- an object; `signal` is `does_process_signal` -/
structure Obj where
  inlets : List Inlet
  outlets : List Outlet
  signal : Bool
  deriving DecidableEq, Repr

/-- a graph: its objects in the order of the dictionary `objs` -/
structure Graph where
  ids : List Nat
  obj : Nat → Obj

/-! ### order -/

/-- the objects connected to the inlets, in the order of HeavyIrObject.py:141 (control connections too) -/
def Graph.parents (g : Graph) (o : Nat) : List Nat := (g.obj o).inlets.flatMap fun l => l.conns.map (·.src)

/-- `is_leaf`, HeavyLangObject.py:316-319 -/
def Graph.isLeaf (g : Graph) (o : Nat) : Bool := (g.obj o).outlets.all (·.conns == 0)

/-- the loop that concatenates the orders of several objects, HeavyIrObject.py:141-142, HeavyGraph.py:800-801 -/
def visitAll (rec : List Nat → Nat → List Nat × List Nat) : List Nat → List Nat → List Nat × List Nat
  | m, [] => (m, [])
  | m, o :: os =>
    let a := rec m o
    let b := visitAll rec a.1 os
    (b.1, a.2 ++ b.2)

/-- `get_parent_order`, HeavyIrObject.py:130-144: the marked objects (`__is_ordered`) before and after, and the list.  The
first argument bounds the depth of the recursion. -/
def Graph.getParentOrder (g : Graph) : Nat → List Nat → Nat → List Nat × List Nat
  | 0, m, _ => (m, [])
  | f + 1, m, o =>
    if o ∈ m then (m, [])
    else
      let a := visitAll (g.getParentOrder f) (o :: m) (g.parents o)
      (a.1, a.2 ++ [o])

/-- the list of HeavyGraph.py:799-801 -/
def Graph.order (g : Graph) : List Nat := (visitAll (g.getParentOrder (g.ids.length + 1)) [] (g.ids.filter g.isLeaf)).2

/-- `order_signal_objects`, HeavyGraph.py:794-804 -/
def Graph.signalOrder (g : Graph) : List Nat := g.order.filter fun o => (g.obj o).signal

/-! ### buffers -/

/-- the pool of one type, BufferPool.py:25-32: the dictionary of lists `count → buffers`, as one list of (buffer, count) in the
order of the last `append` -/
abbrev Pool := List (Nat × Int)

/-- `num_buffers(connection_type)`, BufferPool.py:34-43 -/
def numBuffers (p : Pool) : Nat := p.length

/-- `get_buffer`, BufferPool.py:45-63: the most recently appended buffer with count 0 that is not excluded, or a new one -/
def getBuffer (p : Pool) (count : Int) (exclude : List Nat) : Nat × Pool :=
  match p.reverse.find? (fun e => decide (e.2 = 0 ∧ e.1 ∉ exclude)) with
  | some e => (e.1, p.erase e ++ [(e.1, count)])
  | none => (numBuffers p, p ++ [(numBuffers p, count)])

/-- the loops of `retain_buffer`, `release_buffer`, BufferPool.py:72-78, 89-95: the count changes by `d`; `none`: not found -/
def change (p : Pool) (b : Nat) (d : Int) : Option Pool :=
  match p.find? (fun e => e.1 == b) with
  | some e => some (p.erase e ++ [(e.1, e.2 + d)])
  | none => none

/-- exceptions -/
inductive Err
  | notFound | tooManyInputs | keyError
  deriving DecidableEq, Repr

/-- the pools and the `outlet_buffers` of all objects -/
structure St where
  pool : Ty → Pool
  out : Nat → Nat → Buf

/-- update one pool -/
def St.setPool (st : St) (t : Ty) (p : Pool) : St := { st with pool := fun t' => if t' = t then p else st.pool t' }

/-- update one outlet buffer -/
def St.setOut (st : St) (o k : Nat) (b : Buf) : St :=
  { st with out := fun o' k' => if o' = o ∧ k' = k then b else st.out o' k' }

/-- `release_buffer`, BufferPool.py:80-96 (count 1) -/
def release (st : St) : Buf → Except Err St
  | .zero => .ok st
  | .input _ => .ok st
  | .output _ => .error .keyError
  | .tmp t b =>
    match change (st.pool t) b (-1) with
    | some p => .ok (st.setPool t p)
    | none => .error .notFound

/-- the buffer of one inlet, HeavyIrObject.py:149-165 -/
def assignInlet (st : St) (l : Inlet) : Except Err (St × Buf) :=
  match l.conns.filter (·.isSignal) with
  | [] => .ok (st, l.preset)
  | [c] =>
    let b := st.out c.src c.outlet
    match release st b with
    | .ok st => .ok (st, b)
    | .error e => .error e
  | _ => .error .tooManyInputs

/-- all inlets, HeavyIrObject.py:149-165 -/
def assignInlets : St → List Inlet → Except Err (St × List Buf)
  | st, [] => .ok (st, [])
  | st, l :: ls =>
    match assignInlet st l with
    | .error e => .error e
    | .ok (st, b) =>
      match assignInlets st ls with
      | .error e => .error e
      | .ok (st, bs) => .ok (st, b :: bs)

/-- the outlets from number `k` on, HeavyIrObject.py:168-188 -/
def assignOutlets (o : Nat) : St → List (Ty × Nat) → Nat → List Outlet → St
  | st, _, _, [] => st
  | st, ex, k, l :: ls =>
    match l.ty with
    | some t =>
      if st.out o k = .zero then
        let r := getBuffer (st.pool t) l.conns ((ex.filter (·.1 = t)).map (·.2))
        let st := (st.setPool t r.2).setOut o k (.tmp t r.1)
        assignOutlets o st (if l.conns = 0 then (t, r.1) :: ex else ex) (k + 1) ls
      else assignOutlets o st ex (k + 1) ls
    | none => assignOutlets o st ex (k + 1) ls

/-- one line of the process list: object, buffers at inlets and outlets (`get_ir_signal_list`, HeavyIrObject.py:245-268; lets
that need no signal are kept here, with the zero buffer) -/
structure Step where
  id : Nat
  ins : List Buf
  outs : List Buf
  deriving DecidableEq, Repr

/-- `assign_signal_buffers`, HeavyIrObject.py:146-188 -/
def assignObj (g : Graph) (st : St) (o : Nat) : Except Err (St × Step) :=
  match assignInlets st (g.obj o).inlets with
  | .error e => .error e
  | .ok (st, ins) =>
    let st := assignOutlets o st [] 0 (g.obj o).outlets
    .ok (st, ⟨o, ins, (List.range (g.obj o).outlets.length).map (st.out o)⟩)

/-- the loop of HeavyGraph.py:836-838 -/
def assignAll (g : Graph) : St → List Nat → Except Err (St × List Step)
  | st, [] => .ok (st, [])
  | st, o :: os =>
    match assignObj g st o with
    | .error e => .error e
    | .ok (st, s) =>
      match assignAll g st os with
      | .error e => .error e
      | .ok (st, ss) => .ok (st, s :: ss)

/-- before the assignment: empty pools, preset buffers -/
def Graph.init (g : Graph) : St := ⟨fun _ => [], fun o k => (((g.obj o).outlets[k]?).map (·.preset)).getD .zero⟩

/-- `HeavyGraph.assign_signal_buffers`, HeavyGraph.py:806-855, for the root graph: its inlets and outlets have no connections -/
def Graph.compile (g : Graph) : Except Err (St × List Step) := assignAll g g.init g.signalOrder

/-! ### execution of the process list -/

variable {α : Type}

/-- the values in the buffers -/
abbrev Store (α : Type) := Buf → α

/-- outputs are written to the outlet buffers one after the other; control outlets have the zero buffer, which is not written -/
def write : Store α → List Buf → List α → Store α
  | s, b :: bs, v :: vs => write (if b = .zero then s else fun b' => if b' = b then v else s b') bs vs
  | s, _, _ => s

/-- one block: each object reads its inlet buffers (by value: `VIf`), computes and writes its outlet buffers.  `F o` is what
the C function of object `o` computes in this block.  The result has the final buffers and what each object was given. -/
def exec (F : Nat → List α → List α) : Store α → List Step → Store α × List (Nat × List α)
  | s, [] => (s, [])
  | s, st :: sts =>
    let ins := st.ins.map s
    let r := exec F (write s st.outs (F st.id ins)) sts
    (r.1, (st.id, ins) :: r.2)

/-- the buffers at the start of a block: inputs loaded, outputs zeroed (Heavy_NAME.cpp:216-234), temporaries arbitrary -/
def Store.start [Zero α] (inp : Nat → α) (junk : Ty → Nat → α) : Store α
  | .zero => 0
  | .input c => inp c
  | .output _ => 0
  | .tmp t n => junk t n

end Verif.Signal
