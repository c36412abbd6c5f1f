import Verif.LibSim
/-!
The abstraction `[nbx]`: transcription of hvcc/interpreters/pd2hv/libs/pd/nbx.pd and of the library files it uses, made by
tools/pdlib.py.  Object `0` is the abstraction itself, its outlets are connected to `.probe`s.
-/
set_option linter.unusedVariables false
set_option linter.style.longLine false
set_option maxRecDepth 100000
namespace Verif.Lib.Nbx
open Verif.Control (Dest Kind Cast Patch)

/-- the objects of hvcc/interpreters/pd2hv/libs/pd/nbx.pd: kind, connections of each outlet, class -/
def nodes : List Node :=
  [⟨.graph [1], [[(8, 0)]], .none⟩,  -- 0: nbx
   ⟨.inlet, [[(2, 0)]], .none⟩,  -- 1: nbx, object 0: inlet
   ⟨.graph [5, 6], [[(7, 0)]], .none⟩,  -- 2: nbx, object 1: float 0
   ⟨.obj, [[(4, 0)]], .var (.float 0)⟩,  -- 3: float, object 1: pd @hv_obj __var \$1
   ⟨.outlet 2 0, [], .none⟩,  -- 4: float, object 2: outlet
   ⟨.inlet, [[(3, 0)]], .none⟩,  -- 5: float, object 3: inlet -->
   ⟨.inlet, [[(3, 1)]], .none⟩,  -- 6: float, object 4: inlet -->
   ⟨.outlet 0 0, [], .none⟩,  -- 7: nbx, object 2: outlet
   ⟨.obj, [], .probe 0⟩,  -- 8: outlet 0 of the abstraction
   ⟨.obj, [[(0, 0)]], .none⟩]  -- 9: an object of the surrounding patch, connected to inlet 0

/-- receivers by name, in the order of the file: 0 = __hv_init -/
def recvs : List (List Nat) := [[]]

/-- priorities of receivers, PdReceiveObject.py:96-100 -/
def prio : Nat → Int
  | _ => 0

/-- the receivers in the order in which they fire -/
def order : List (List Nat) := [[]]

/-- the object connected to inlet `i` -/
def drv (i : Nat) : Nat := 9 + i

/-- the abstraction as it is (`Verif.Control`: C45, C35) -/
def mach (c : Ctx) : Mach := source c (nodes) (recvsOf recvs) prio (recvsOf order)

/-- `M` is generated code -/
def Code (c : Ctx) (M : Mach) : Prop := Compiled c (nodes) (recvsOf recvs) prio M

/-- what it means -/
def sys (c : Ctx) : Control.Sys St Msg := (mach c).sys

/-- kinds and connections -/
def shape : Shape :=
  [(.graph [1], [[(8, 0)]]),
   (.inlet, [[(2, 0)]]),
   (.graph [5, 6], [[(7, 0)]]),
   (.obj, [[(4, 0)]]),
   (.outlet 2 0, []),
   (.inlet, [[(3, 0)]]),
   (.inlet, [[(3, 1)]]),
   (.outlet 0 0, []),
   (.obj, []),
   (.obj, [[(0, 0)]])]

theorem shape_eq : shapeOf (nodes) = shape := rfl

theorem checked : check (shapeOf (nodes)) recvs order prio [0, 0, 0, 0, 0, 0, 0, 0, 0, 0] = true := by
  rw [shape_eq]
  decide +kernel

theorem classes : clsOK (nodes) = true := rfl

theorem drv_valid {i : Nat} (h : i < 1) (m : Msg) : (Control.Src.outlet (drv i) 0 m).Valid (mkPatch (nodes) (recvsOf recvs) prio) (nodes).length := by
  have : i = 0 := by omega
  rcases this with rfl <;> exact ⟨Nat.le_of_ble_eq_true rfl, rfl, Nat.le_of_ble_eq_true rfl⟩

/-- messages for the inlets there are -/
def Inlet : Ev → Prop
  | .ext _ i _ => i < 1
  | .tick => True

theorem driven {e : Ev} (h : Inlet e) : Driven (nodes) (recvsOf recvs) prio drv e := by
  cases e with
  | ext t i m => exact drv_valid h
  | tick => trivial

theorem to_code {c : Ctx} {M : Mach} (hM : Code c M) {tab : Nat → List ℚ} {Fits : Ev → Prop} (hf : ∀ e, Fits e → Inlet e) {σ : Type}
    {on : σ → Ev → σ} {x0 : σ} {Sim : σ → St → Prop}
    (h : Simulates (mach c) drv (start c (nodes) tab) Fits on x0 Sim) :
    Simulates M drv (start c (nodes) tab) Fits on x0 (fun x s => Sim x s ∧ GoodQ (nodes) s) :=
  h.code (checked) (classes) hM fun e he => driven (hf e he)

/-- it compiles -/
theorem code_exists (c : Ctx) : ∃ M, Code c M := exists_compiled c (checked) (f := 20) (by rw [shape_eq]; decide +kernel)

/-! one lemma per object, for rewriting -/

theorem n0_0 (c : Ctx) (m : Msg) : (sys c).node (0, 0) m = .fwd false [((2, 0), m)] := rfl
theorem n2_0 (c : Ctx) (m : Msg) : (sys c).node (2, 0) m = .fwd false [((3, 0), m)] := rfl
theorem n2_1 (c : Ctx) (m : Msg) : (sys c).node (2, 1) m = .fwd false [((3, 1), m)] := rfl
theorem n3 (c : Ctx) (i : Nat) (m : Msg) : (sys c).node (3, i) m = .obj (beh c (.var (.float 0)) 3 i m) := rfl
theorem o3_0 (c : Ctx) : (sys c).out 3 0 = [(4, 0)] := rfl
theorem n4 (c : Ctx) (i : Nat) (m : Msg) : (sys c).node (4, i) m = .fwd false [((7, 0), m)] := rfl
theorem n7 (c : Ctx) (i : Nat) (m : Msg) : (sys c).node (7, i) m = .fwd false [((8, 0), m)] := rfl
theorem n8 (c : Ctx) (i : Nat) (m : Msg) : (sys c).node (8, i) m = .obj (beh c (.probe 0) 8 i m) := rfl
theorem n9 (c : Ctx) (i : Nat) (m : Msg) : (sys c).node (9, i) m = .obj (beh c (.none) 9 i m) := rfl
theorem o9_0 (c : Ctx) : (sys c).out 9 0 = [(0, 0)] := rfl

attribute [lib_nbx] n0_0 n2_0 n2_1 n3 o3_0 n4 n7 n8 n9 o9_0

end Verif.Lib.Nbx
