import Verif.Control
/-!
The priority of Pd receivers: `PdReceiveObject`, hvcc/interpreters/pd2hv/PdReceiveObject.py:22-150, `PdGraph.get_depth`,
hvcc/interpreters/pd2hv/PdGraph.py:212-221.
-/
namespace Verif.PdReceive

/-- the second argument of [receive]: absent or not an integer (`int(…)` raises, and the exception is swallowed,
PdReceiveObject.py:66-67), `@hv_param`/`@hv_event`, or an integer -/
inductive Arg
  | none | extern | int (z : Int)
  deriving DecidableEq, Repr

/-- what the parser meets, in the order of the file: the start of a subpatch or of the file of an abstraction, its end, a control
receiver (its object number in the compiled graph, its name), a signal receiver ([r~], [catch~]: they are counted as well) -/
inductive Ev
  | push | pop
  | recv (id name : Nat) (arg : Arg)
  | sigRecv
  deriving DecidableEq, Repr

/-- PdReceiveObject.py:50-67: `elif int(self.obj_args[1]): self.__priority = …`; zero is not stored -/
def explicit : Arg → Option Int
  | .int z => if z ≠ 0 then some z else none
  | _ => none

/-- PdReceiveObject.py:126-130: the stored priority or `depth*1000 - instance` (the alternative `__priority == 0` of the
condition never holds) -/
def priority (a : Arg) (depth : Int) (inst : Nat) : Int :=
  match explicit a with
  | some z => z
  | none => depth * 1000 - inst

/-- a receiver of the compiled graph -/
structure Recv where
  id : Nat
  name : Nat
  prio : Int
  deriving DecidableEq, Repr

/-- the control receivers in the order of their registration (by `HeavyGraph.add_object`, in file order); `depth`: of the present
graph (`get_depth`); `c`: `__INSTANCE_COUNTER`, PdReceiveObject.py:24, 41-42 -/
def load : List Ev → Int → Nat → List Recv
  | [], _, _ => []
  | .push :: es, d, c => load es (d + 1) c
  | .pop :: es, d, c => load es (d - 1) c
  | .sigRecv :: es, d, c => load es d (c + 1)
  | .recv id nm a :: es, d, c => ⟨id, nm, priority a d (c + 1)⟩ :: load es d (c + 1)

end Verif.PdReceive
