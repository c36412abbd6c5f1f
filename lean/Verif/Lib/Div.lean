import Verif.LibSim
/-!
The abstraction `[div]`: transcription of hvcc/interpreters/pd2hv/libs/pd/div.pd and of the library files it uses, made by
tools/pdlib.py.  Object `0` is the abstraction itself, its outlets are connected to `.probe`s.
-/
set_option linter.unusedVariables false
set_option linter.style.longLine false
set_option maxRecDepth 100000
namespace Verif.Lib.Div
open Verif.Control (Dest Kind Cast Patch)

/-- the objects of hvcc/interpreters/pd2hv/libs/pd/div.pd: kind, connections of each outlet, class -/
def nodes (a1 : ℚ) : List Node :=
  [⟨.graph [2, 3], [[(5, 0)]], .none⟩,  -- 0: div
   ⟨.outlet 0 0, [], .none⟩,  -- 1: div, object 0: outlet
   ⟨.inlet, [[(4, 0)]], .none⟩,  -- 2: div, object 1: inlet -->
   ⟨.inlet, [[(4, 1)]], .none⟩,  -- 3: div, object 2: inlet -->
   ⟨.obj, [[(1, 0)]], .bin .intdiv a1⟩,  -- 4: div, object 4: pd @hv_obj __intdiv \$1
   ⟨.obj, [], .probe 0⟩,  -- 5: outlet 0 of the abstraction
   ⟨.obj, [[(0, 0)]], .none⟩,  -- 6: an object of the surrounding patch, connected to inlet 0
   ⟨.obj, [[(0, 1)]], .none⟩]  -- 7: an object of the surrounding patch, connected to inlet 1

/-- receivers by name, in the order of the file: 0 = __hv_init -/
def recvs : List (List Nat) := [[]]

/-- priorities of receivers, PdReceiveObject.py:96-100 -/
def prio : Nat → Int
  | _ => 0

/-- the receivers in the order in which they fire -/
def order : List (List Nat) := [[]]

/-- the object connected to inlet `i` -/
def drv (i : Nat) : Nat := 6 + i

/-- the abstraction as it is (`Verif.Control`: C45, C35) -/
def mach (a1 : ℚ) (c : Ctx) : Mach := source c (nodes a1) (recvsOf recvs) prio (recvsOf order)

/-- `M` is generated code -/
def Code (a1 : ℚ) (c : Ctx) (M : Mach) : Prop := Compiled c (nodes a1) (recvsOf recvs) prio M

/-- what it means -/
def sys (a1 : ℚ) (c : Ctx) : Control.Sys St Msg := (mach a1 c).sys

/-- kinds and connections -/
def shape : Shape :=
  [(.graph [2, 3], [[(5, 0)]]),
   (.outlet 0 0, []),
   (.inlet, [[(4, 0)]]),
   (.inlet, [[(4, 1)]]),
   (.obj, [[(1, 0)]]),
   (.obj, []),
   (.obj, [[(0, 0)]]),
   (.obj, [[(0, 1)]])]

theorem shape_eq (a1 : ℚ) : shapeOf (nodes a1) = shape := rfl

theorem checked (a1 : ℚ) : check (shapeOf (nodes a1)) recvs order prio [0, 0, 0, 0, 0, 0, 0, 0] = true := by
  rw [shape_eq]
  decide +kernel

theorem classes (a1 : ℚ) : clsOK (nodes a1) = true := rfl

theorem drv_valid (a1 : ℚ) {i : Nat} (h : i < 2) (m : Msg) : (Control.Src.outlet (drv i) 0 m).Valid (mkPatch (nodes a1) (recvsOf recvs) prio) (nodes a1).length := by
  have : i = 0 ∨ i = 1 := by omega
  rcases this with rfl | rfl <;> exact ⟨Nat.le_of_ble_eq_true rfl, rfl, Nat.le_of_ble_eq_true rfl⟩

/-- messages for the inlets there are -/
def Inlet : Ev → Prop
  | .ext _ i _ => i < 2
  | .tick => True

theorem driven (a1 : ℚ) {e : Ev} (h : Inlet e) : Driven (nodes a1) (recvsOf recvs) prio drv e := by
  cases e with
  | ext t i m => exact drv_valid a1 h
  | tick => trivial

theorem to_code {c : Ctx} {a1 : ℚ} {M : Mach} (hM : Code a1 c M) {tab : Nat → List ℚ} {Fits : Ev → Prop} (hf : ∀ e, Fits e → Inlet e) {σ : Type}
    {on : σ → Ev → σ} {x0 : σ} {Sim : σ → St → Prop}
    (h : Simulates (mach a1 c) drv (start c (nodes a1) tab) Fits on x0 Sim) :
    Simulates M drv (start c (nodes a1) tab) Fits on x0 (fun x s => Sim x s ∧ GoodQ (nodes a1) s) :=
  h.code (checked a1) (classes a1) hM fun e he => driven a1 (hf e he)

/-- it compiles -/
theorem code_exists (a1 : ℚ) (c : Ctx) : ∃ M, Code a1 c M := exists_compiled c (checked a1) (f := 20) (by rw [shape_eq]; decide +kernel)

/-! one lemma per object, for rewriting -/

theorem n0_0 (a1 : ℚ) (c : Ctx) (m : Msg) : (sys a1 c).node (0, 0) m = .fwd false [((4, 0), m)] := rfl
theorem n0_1 (a1 : ℚ) (c : Ctx) (m : Msg) : (sys a1 c).node (0, 1) m = .fwd false [((4, 1), m)] := rfl
theorem n1 (a1 : ℚ) (c : Ctx) (i : Nat) (m : Msg) : (sys a1 c).node (1, i) m = .fwd false [((5, 0), m)] := rfl
theorem n4 (a1 : ℚ) (c : Ctx) (i : Nat) (m : Msg) : (sys a1 c).node (4, i) m = .obj (beh c (.bin .intdiv a1) 4 i m) := rfl
theorem o4_0 (a1 : ℚ) (c : Ctx) : (sys a1 c).out 4 0 = [(1, 0)] := rfl
theorem n5 (a1 : ℚ) (c : Ctx) (i : Nat) (m : Msg) : (sys a1 c).node (5, i) m = .obj (beh c (.probe 0) 5 i m) := rfl
theorem n6 (a1 : ℚ) (c : Ctx) (i : Nat) (m : Msg) : (sys a1 c).node (6, i) m = .obj (beh c (.none) 6 i m) := rfl
theorem o6_0 (a1 : ℚ) (c : Ctx) : (sys a1 c).out 6 0 = [(0, 0)] := rfl
theorem n7 (a1 : ℚ) (c : Ctx) (i : Nat) (m : Msg) : (sys a1 c).node (7, i) m = .obj (beh c (.none) 7 i m) := rfl
theorem o7_0 (a1 : ℚ) (c : Ctx) : (sys a1 c).out 7 0 = [(0, 1)] := rfl

attribute [lib_div] n0_0 n0_1 n1 n4 o4_0 n5 n6 o6_0 n7 o7_0

end Verif.Lib.Div
