import Verif.LibSim
/-!
The abstraction `[loadbang]`: transcription of hvcc/interpreters/pd2hv/libs/pd/loadbang.pd and of the library files it uses, made by
tools/pdlib.py.  Object `0` is the abstraction itself, its outlets are connected to `.probe`s.
-/
set_option linter.unusedVariables false
set_option linter.style.longLine false
set_option maxRecDepth 100000
namespace Verif.Lib.Loadbang
open Verif.Control (Dest Kind Cast Patch)

/-- the objects of hvcc/interpreters/pd2hv/libs/pd/loadbang.pd: kind, connections of each outlet, class -/
def nodes : List Node :=
  [⟨.graph [], [[(3, 0)]], .none⟩,  -- 0: loadbang
   ⟨.recv, [[(2, 0)]], .none⟩,  -- 1: loadbang, object 0: r __hv_init \$1
   ⟨.outlet 0 0, [], .none⟩,  -- 2: loadbang, object 1: outlet
   ⟨.obj, [], .probe 0⟩]  -- 3: outlet 0 of the abstraction

/-- receivers by name, in the order of the file: 0 = __hv_init -/
def recvs : List (List Nat) := [[1]]

/-- priorities of receivers, PdReceiveObject.py:96-100 -/
def prio : Nat → Int
  | 1 => -1
  | _ => 0

/-- the receivers in the order in which they fire -/
def order : List (List Nat) := [[1]]

/-- the object connected to inlet `i` -/
def drv (i : Nat) : Nat := 4 + i

/-- the abstraction as it is (`Verif.Control`: C45, C35) -/
def mach (c : Ctx) : Mach := source c (nodes) (recvsOf recvs) prio (recvsOf order)

/-- `M` is generated code -/
def Code (c : Ctx) (M : Mach) : Prop := Compiled c (nodes) (recvsOf recvs) prio M

/-- what it means -/
def sys (c : Ctx) : Control.Sys St Msg := (mach c).sys

/-- kinds and connections -/
def shape : Shape :=
  [(.graph [], [[(3, 0)]]),
   (.recv, [[(2, 0)]]),
   (.outlet 0 0, []),
   (.obj, [])]

theorem shape_eq : shapeOf (nodes) = shape := rfl

theorem checked : check (shapeOf (nodes)) recvs order prio [0, 0, 0, 0] = true := by
  rw [shape_eq]
  decide +kernel

theorem classes : clsOK (nodes) = true := rfl

/-- it compiles -/
theorem code_exists (c : Ctx) : ∃ M, Code c M := exists_compiled c (checked) (f := 20) (by rw [shape_eq]; decide +kernel)

/-! one lemma per object, for rewriting -/

theorem n2 (c : Ctx) (i : Nat) (m : Msg) : (sys c).node (2, i) m = .fwd false [((3, 0), m)] := rfl
theorem n3 (c : Ctx) (i : Nat) (m : Msg) : (sys c).node (3, i) m = .obj (beh c (.probe 0) 3 i m) := rfl

attribute [lib_bang] n2 n3

end Verif.Lib.Loadbang
