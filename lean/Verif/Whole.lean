import Verif.Props.Reduce
import Verif.Props.SignalPipeline
import Verif.VarExec
import Mathlib.Algebra.Ring.Pi
/-!
The signal compiler as a whole, for one graph: `remap_send_receive` (Verif.Remap), `reduce` (Verif.Reduce), `cascade_expansion` and `fma_replacement`
(Verif.Cascade, Verif.Fma), the order of the process list and its buffers (Verif.Signal), in the order of `HeavyGraph.prepare`
(hvcc/core/hv2ir/HeavyGraph.py:423-472); and the generated program, which runs the process list once for every vector of `B`
samples, called a block here (hvcc/generators/ir2c/templates/Heavy_NAME.cpp:178-267).

Simplifications: `[adc~]` and `[dac~]` are given as one object for every channel, as their `reduce` makes them
(HLangAdc.py:49-65, HLangDac.py:44-58); the other objects are given by their inlets, outlets and behaviour; one graph without
subgraphs; the numbers are those of a field.
-/
namespace Verif.Whole
open Verif

/-- inlets and outlets of an object that is not an operator: a channel of `[adc~]`, a channel of `[dac~]`, or any other object with
the number of its inlets, the types of its outlets (`none` for messages) and `does_process_signal`, HeavyIrObject.py:70-71,
HeavyIrObject.py:104-106 -/
inductive Shape
  | input (ch : Nat)
  | output (ch : Nat)
  | object (ins : Nat) (outs : List (Option Signal.Ty)) (signal : Bool)

variable {α μ : Type}

/-- inlets and outlets of the HeavyIR objects that `reduce` makes, hvcc/core/json/heavy.ir.json -/
def kindShape (sh : Shape) : Reduce.Kind α → Shape
  | .irBin _ => .object 2 [some .f] true
  | .irUn _ => .object 1 [some .f] true
  | .irBinC .. => .object 2 [none] false
  | .irUnC _ => .object 1 [none] false
  | .varK _ | .varRead _ => .object 0 [some .f] true
  | .varS _ => .object 1 [some .f] false
  | .varC _ => .object 2 [none] false
  | .varWrite _ => .object 1 [] true
  | .varSig => .object 0 [] false
  | _ => sh

/-- a connection, as seen from its inlet -/
def seen (c : Reduce.Conn) : Signal.Conn := ⟨c.src, c.outlet, c.ty != .c⟩

/-- an object with its connections, for the later passes -/
def object (g : Reduce.Graph α) (p : Nat) : Shape → Signal.Obj
  | .input ch => ⟨[], [⟨some .f, (g.outs p 0).length, .input ch⟩], false⟩
  | .output ch => Signal.dacObj ((g.ins p 0).map seen) ch
  | .object n os s => ⟨(List.range n).map fun i => ⟨(g.ins p i).map seen, .zero⟩,
      os.mapIdx fun j ty => ⟨ty, (g.outs p j).length, .zero⟩, s⟩

/-- the reduced graph, as the later passes see it -/
def graph (sh : Nat → Shape) (g : Reduce.Graph α) : Signal.Graph := ⟨g.ids, fun p => object g p (kindShape (sh p) (g.kind p))⟩

/-- the types that `fma_replacement` looks for, HeavyGraph.py:692-740; a channel of `[dac~]` is an `__add~f`, HLangDac.py:47 -/
def kinds (sh : Nat → Shape) (g : Reduce.Graph α) (p : Nat) : Signal.Kind :=
  match g.kind p with
  | .irBin name => if name = "__mul~f" then .mul else if name = "__add~f" then .add else if name = "__sub~f" then .sub else .other
  | .other _ => match sh p with
    | .output _ => .add
    | _ => .other
  | _ => .other

/-- the passes after `reduce` -/
def later (sh : Nat → Shape) (r : Reduce.Graph α × Nat) : Signal.KGraph × Nat := Signal.rewrite (graph sh r.1) (kinds sh r.1) r.2

/-! ### the generated program -/

variable [Field α] {B : Nat} [NeZero B]

/-- a block of samples -/
abbrev Block (B : Nat) (α : Type) : Type := Fin B → α

/-- the signal at inlet `i`, sample `t`, from the inputs of all blocks -/
def heard (h : List (List (Block B α))) (i t : Nat) : α := ((h.getD (t / B) []).getD i 0) (Fin.ofNat B t)

/-- what an object that is not an arithmetic operator does in block `b`: `h` are the signals at its inlets in the blocks before,
`l` in this block; `log t` are the messages sent until sample `t`; `m` are the variables made for `[send~]` (HvSignalVar.h) -/
def special (W : Reduce.World α μ) (log : Nat → List (Reduce.Sent μ)) (sh : Nat → Shape) (g : Reduce.Graph α) (b : Nat)
    (h : Nat → List (List (Block B α))) (m : Reduce.Vars α B) (p : Nat) (l : List (Block B α)) : List (Block B α) :=
  match g.kind p with
  | .irBin name => [fun s => W.op (Reduce.irOp name) (l.getD 0 0 s) (l.getD 1 0 s)]
  | .irUn name => [fun s => W.fn (Reduce.irFn name) (l.getD 0 0 s)]
  | .varK k => [fun _ => k]
  | .varRead y => match g.kind y with
    | .varS k => [fun s => Reduce.held W k (Reduce.received (log (b * B + s)) (g.ins y 0))]
    | _ => [m y]
  | .varWrite _ | .varSig => []
  | .other _ => match sh p with
    | .object _ os _ => (List.range os.length).map fun j s =>
        W.beh p (heard (h p ++ [l])) (fun i t => Reduce.received (log t) (g.ins p i)) j (b * B + s)
    | _ => [0]
  | _ => [0]

/-- what an object of the process list computes -/
def compute (W : Reduce.World α μ) (log : Nat → List (Reduce.Sent μ)) (sh : Nat → Shape) (g : Reduce.Graph α) (K : Nat → Signal.Kind)
    (b : Nat) (h : Nat → List (List (Block B α))) (m : Reduce.Vars α B) (p : Nat) (l : List (Block B α)) : List (Block B α) :=
  match K p with
  | .mul => [l.getD 0 0 * l.getD 1 0]
  | .add => [l.getD 0 0 + l.getD 1 0]
  | .sub => [l.getD 0 0 - l.getD 1 0]
  | .fma => [l.getD 0 0 * l.getD 1 0 + l.getD 2 0]
  | .fms => [l.getD 0 0 * l.getD 1 0 - l.getD 2 0]
  | .other => special W log sh g b h m p l

/-- what an object of the process list is; those that the later passes make (`__add~f`, `__fma~f`, ...) are operators -/
def kindIn (g : Reduce.Graph α) (p : Nat) : Reduce.Kind α := if p ∈ g.ids then g.kind p else .irBin ""

/-- the process list, run once, Heavy_NAME.cpp:236-240: every object reads its buffers and the variables and writes its buffers;
`__hv_varwrite_f` writes a variable (`Reduce.runOne`); the buffers, the variables and what every object has read -/
def run (kind : Nat → Reduce.Kind α) (F : Reduce.Vars α B → Nat → List (Block B α) → List (Block B α)) :
    Reduce.Vars α B → Signal.Store (Block B α) → List Signal.Step →
      Signal.Store (Block B α) × Reduce.Vars α B × List (Nat × List (Block B α))
  | m, s, [] => (s, m, [])
  | m, s, y :: ss =>
    let ins := y.ins.map s
    let r := run kind F (Reduce.runOne kind (fun _ => ins.getD 0 0) y.id m) (Signal.write s y.outs (F m y.id ins)) ss
    (r.1, r.2.1, (y.id, ins) :: r.2.2)

/-- what the program remembers from one block to the next: the variables, and for every object all inputs -/
structure Past (B : Nat) (α : Type) where
  vars : Reduce.Vars α B
  ins : Nat → List (List (Block B α))

/-- what the objects compute in block `b`, depending on their inputs before and the variables -/
abbrev Functions (B : Nat) (α : Type) : Type :=
  Nat → (Nat → List (List (Block B α))) → Reduce.Vars α B → Nat → List (Block B α) → List (Block B α)

/-- one block: the process list is run on the input channels and whatever the buffers hold; afterwards every object has had one more
block of input -/
def block (kind : Nat → Reduce.Kind α) (F : Functions B α) (b : Nat) (ss : List Signal.Step)
    (inp : Nat → Block B α) (junk : Signal.Ty → Nat → Block B α) (h : Past B α) : (Nat → Block B α) × Past B α :=
  let r := run kind (F b h.ins) h.vars (Signal.Store.start inp junk) ss
  (fun c => r.1 (.output c), ⟨r.2.1, fun p => h.ins p ++ ((r.2.2.find? (·.1 = p)).map (·.2)).toList⟩)

/-- the inputs of all objects after `b` blocks; the variables are 0 at the beginning (HvSignalVar.c:37-40) -/
def played (kind : Nat → Reduce.Kind α) (F : Functions B α) (ss : List Signal.Step)
    (inp : Nat → Nat → Block B α) (junk : Nat → Signal.Ty → Nat → Block B α) : Nat → Past B α
  | 0 => ⟨fun _ _ => 0, fun _ => []⟩
  | b + 1 => (block kind F b ss (inp b) (junk b) (played kind F ss inp junk b)).2

/-- what the program plays in block `b` -/
def output (kind : Nat → Reduce.Kind α) (F : Functions B α) (ss : List Signal.Step)
    (inp : Nat → Nat → Block B α) (junk : Nat → Signal.Ty → Nat → Block B α) (b : Nat) : Nat → Block B α :=
  (block kind F b ss (inp b) (junk b) (played kind F ss inp junk b)).1

end Verif.Whole
