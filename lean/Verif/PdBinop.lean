import Verif.ReduceGraph
/-!
Messages at the inlets of Pd's signal operators (`+~ -~ *~ /~ max~ min~ pow~`): hvcc/interpreters/pd2hv/PdBinopObject.py:75-142 inserts
`var` objects.  The canvas is a list of cables (`PdGraph.__connections`); the lists at the objects say the same and are left out.
-/
namespace Verif.PdBinop
open Verif.Reduce

variable {α : Type}

/-- a canvas: objects, their classes, cables; the next new object; was an error reported? -/
structure Canvas (α : Type) where
  ids : List Nat
  kind : Nat → Kind α
  cs : List Conn
  next : Nat
  err : Bool

/-- the cable of messages `c`, now to the object `n` -/
def moved (n : Nat) (c : Conn) : Conn := ⟨c.src, c.outlet, n, 0, .c⟩

/-- `convert_ctrl_to_sig_connections_at_inlet`, PdBinopObject.py:115-146: a `var 0`, a cable of signals from it to inlet `i` of `o`, and
the cables of messages among `l` one by one appended as cables to the `var` and removed -/
def convert [Zero α] (o i : Nat) (l : List Conn) (C : Canvas α) : Canvas α where
  ids := C.ids ++ [C.next]
  kind p := if p = C.next then .var 0 else C.kind p
  next := C.next + 1
  err := C.err
  cs := (l.filter fun c => c.ty = .c).foldl (fun cs c => (cs ++ [moved C.next c]).erase c) (C.cs ++ [⟨C.next, 0, o, i, .f⟩])

/-- the cables to an inlet -/
def Canvas.into (C : Canvas α) (o i : Nat) : List Conn := C.cs.filter (·.into o i)

/-- the left inlet, PdBinopObject.py:81-90: without a cable of signals -/
def left [Zero α] (o : Nat) (C : Canvas α) : Canvas α :=
  if hasSig (C.into o 0) then C else convert o 0 (C.into o 0) C
where
  /-- is there a cable of signals? -/
  hasSig (l : List Conn) : Bool := l.any fun c => c.ty = .f

/-- the right inlet, PdBinopObject.py:92-103: only without an argument, with cables, none of them of signals.  With an argument and a cable
of signals an error is reported -/
def right [Zero α] (args : Nat → Bool) (o : Nat) (C : Canvas α) : Canvas α :=
  if left.hasSig (C.into o 1) then { C with err := C.err || args o }
  else if args o = false ∧ C.into o 1 ≠ [] then convert o 1 (C.into o 1) C else C

/-- `PdBinopObject.validate_configuration` for all the signal operators of a canvas, PdGraph.py:171-173 -/
def validate [Zero α] (args : Nat → Bool) (ops : List Nat) (C : Canvas α) : Canvas α :=
  ops.foldl (fun C o => right args o (left o C)) C

/-- the canvas as a graph of hv2ir -/
def Canvas.graph (C : Canvas α) : Graph α where
  ids := C.ids
  kind := C.kind
  ins d i := C.cs.filter (·.into d i)
  outs p j := C.cs.filter (·.from p j)

end Verif.PdBinop
