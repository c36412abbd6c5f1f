import Verif.LibSim
/-!
The abstraction `[bang~]`: transcription of hvcc/interpreters/pd2hv/libs/pd/bang~.pd and of the library files it uses, made by
tools/pdlib.py.  Object `0` is the abstraction itself, its outlets are connected to `.probe`s.
-/
set_option linter.unusedVariables false
set_option linter.style.longLine false
set_option maxRecDepth 100000
namespace Verif.Lib.Bang
open Verif.Control (Dest Kind Cast Patch)

/-- the objects of hvcc/interpreters/pd2hv/libs/pd/bang~.pd: kind, connections of each outlet, class -/
def nodes : List Node :=
  [⟨.graph [3], [[(7, 0)]], .none⟩,  -- 0: bang~
   ⟨.recv, [[(2, 0)]], .none⟩,  -- 1: bang~, object 0: r __hv_bang~
   ⟨.outlet 0 0, [], .none⟩,  -- 2: bang~, object 1: outlet
   ⟨.inlet, [[]], .none⟩,  -- 3: bang~, object 2: inlet
   ⟨.graph [], [[(2, 0)]], .none⟩,  -- 4: bang~, object 5: loadbang
   ⟨.recv, [[(6, 0)]], .none⟩,  -- 5: loadbang, object 0: r __hv_init \$1
   ⟨.outlet 4 0, [], .none⟩,  -- 6: loadbang, object 1: outlet
   ⟨.obj, [], .probe 0⟩,  -- 7: outlet 0 of the abstraction
   ⟨.obj, [[(0, 0)]], .none⟩,  -- 8: an object of the surrounding patch, connected to inlet 0
   ⟨.obj, [[(10, 0)]], .none⟩,  -- 9: what sends messages to __hv_bang~: number 1
   ⟨.send 1, [[]], .none⟩]  -- 10: to __hv_bang~

/-- receivers by name, in the order of the file: 0 = __hv_init, 1 = __hv_bang~ -/
def recvs : List (List Nat) := [[5], [1]]

/-- priorities of receivers, PdReceiveObject.py:96-100 -/
def prio : Nat → Int
  | 1 => -1
  | 5 => 998
  | _ => 0

/-- the receivers in the order in which they fire -/
def order : List (List Nat) := [[5], [1]]

/-- the object connected to inlet `i` -/
def drv (i : Nat) : Nat := 8 + i

/-- the abstraction as it is (`Verif.Control`: C45, C35) -/
def mach (c : Ctx) : Mach := source c (nodes) (recvsOf recvs) prio (recvsOf order)

/-- `M` is generated code -/
def Code (c : Ctx) (M : Mach) : Prop := Compiled c (nodes) (recvsOf recvs) prio M

/-- what it means -/
def sys (c : Ctx) : Control.Sys St Msg := (mach c).sys

/-- kinds and connections -/
def shape : Shape :=
  [(.graph [3], [[(7, 0)]]),
   (.recv, [[(2, 0)]]),
   (.outlet 0 0, []),
   (.inlet, [[]]),
   (.graph [], [[(2, 0)]]),
   (.recv, [[(6, 0)]]),
   (.outlet 4 0, []),
   (.obj, []),
   (.obj, [[(0, 0)]]),
   (.obj, [[(10, 0)]]),
   (.send 1, [[]])]

theorem shape_eq : shapeOf (nodes) = shape := rfl

theorem checked : check (shapeOf (nodes)) recvs order prio [0, 0, 0, 0, 0, 0, 0, 0, 0, 0, 0] = true := by
  rw [shape_eq]
  decide +kernel

theorem classes : clsOK (nodes) = true := rfl

theorem drv_valid {i : Nat} (h : i < 2) (m : Msg) : (Control.Src.outlet (drv i) 0 m).Valid (mkPatch (nodes) (recvsOf recvs) prio) (nodes).length := by
  have : i = 0 ∨ i = 1 := by omega
  rcases this with rfl | rfl <;> exact ⟨Nat.le_of_ble_eq_true rfl, rfl, Nat.le_of_ble_eq_true rfl⟩

/-- messages for the inlets there are -/
def Inlet : Ev → Prop
  | .ext _ i _ => i < 2
  | .tick => True

theorem driven {e : Ev} (h : Inlet e) : Driven (nodes) (recvsOf recvs) prio drv e := by
  cases e with
  | ext t i m => exact drv_valid h
  | tick => trivial

theorem to_code {c : Ctx} {M : Mach} (hM : Code c M) {tab : Nat → List ℚ} {Fits : Ev → Prop} (hf : ∀ e, Fits e → Inlet e) {σ : Type}
    {on : σ → Ev → σ} {x0 : σ} {Sim : σ → St → Prop}
    (h : Simulates (mach c) drv (start c (nodes) tab) Fits on x0 Sim) :
    Simulates M drv (start c (nodes) tab) Fits on x0 (fun x s => Sim x s ∧ GoodQ (nodes) s) :=
  h.code (checked) (classes) hM fun e he => driven (hf e he)

/-- it compiles -/
theorem code_exists (c : Ctx) : ∃ M, Code c M := exists_compiled c (checked) (f := 20) (by rw [shape_eq]; decide +kernel)

/-! one lemma per object, for rewriting -/

theorem n0_0 (c : Ctx) (m : Msg) : (sys c).node (0, 0) m = .fwd false [] := rfl
theorem n2 (c : Ctx) (i : Nat) (m : Msg) : (sys c).node (2, i) m = .fwd false [((7, 0), m)] := rfl
theorem n6 (c : Ctx) (i : Nat) (m : Msg) : (sys c).node (6, i) m = .fwd false [((2, 0), m)] := rfl
theorem n7 (c : Ctx) (i : Nat) (m : Msg) : (sys c).node (7, i) m = .obj (beh c (.probe 0) 7 i m) := rfl
theorem n8 (c : Ctx) (i : Nat) (m : Msg) : (sys c).node (8, i) m = .obj (beh c (.none) 8 i m) := rfl
theorem o8_0 (c : Ctx) : (sys c).out 8 0 = [(0, 0)] := rfl
theorem n9 (c : Ctx) (i : Nat) (m : Msg) : (sys c).node (9, i) m = .obj (beh c (.none) 9 i m) := rfl
theorem o9_0 (c : Ctx) : (sys c).out 9 0 = [(10, 0)] := rfl
theorem n10 (c : Ctx) (i : Nat) (m : Msg) : (sys c).node (10, i) m = .fwd true [((2, 0), m)] := rfl

attribute [lib_bang] n0_0 n2 n6 n7 n8 o8_0 n9 o9_0 n10

end Verif.Lib.Bang
