import Verif.LibSim
/-!
The abstraction `[symbolatom]`: transcription of hvcc/interpreters/pd2hv/libs/pd/symbolatom.pd and of the library files it uses, made by
tools/pdlib.py.  Object `0` is the abstraction itself, its outlets are connected to `.probe`s.
-/
set_option linter.unusedVariables false
set_option linter.style.longLine false
set_option maxRecDepth 100000
namespace Verif.Lib.Symbolatom
open Verif.Control (Dest Kind Cast Patch)

/-- the objects of hvcc/interpreters/pd2hv/libs/pd/symbolatom.pd: kind, connections of each outlet, class -/
def nodes (a1 : String) : List Node :=
  [⟨.graph [1], [[(8, 0)]], .none⟩,  -- 0: symbolatom
   ⟨.inlet, [[(3, 0)]], .none⟩,  -- 1: symbolatom, object 0: inlet
   ⟨.outlet 0 0, [], .none⟩,  -- 2: symbolatom, object 1: outlet
   ⟨.graph [4, 7], [[(2, 0)]], .none⟩,  -- 3: symbolatom, object 2: symbol \$1
   ⟨.inlet, [[(6, 0)]], .none⟩,  -- 4: symbol, object 0: inlet
   ⟨.outlet 3 0, [], .none⟩,  -- 5: symbol, object 1: outlet
   ⟨.obj, [[(5, 0)]], .var (.sym a1)⟩,  -- 6: symbol, object 2: pd @hv_obj __var \$1
   ⟨.inlet, [[(6, 1)]], .none⟩,  -- 7: symbol, object 3: inlet
   ⟨.obj, [], .probe 0⟩,  -- 8: outlet 0 of the abstraction
   ⟨.obj, [[(0, 0)]], .none⟩]  -- 9: an object of the surrounding patch, connected to inlet 0

/-- receivers by name, in the order of the file: 0 = __hv_init -/
def recvs : List (List Nat) := [[]]

/-- priorities of receivers, PdReceiveObject.py:96-100 -/
def prio : Nat → Int
  | _ => 0

/-- the receivers in the order in which they fire -/
def order : List (List Nat) := [[]]

/-- the object connected to inlet `i` -/
def drv (i : Nat) : Nat := 9 + i

/-- the abstraction as it is (`Verif.Control`: C45, C35) -/
def mach (a1 : String) (c : Ctx) : Mach := source c (nodes a1) (recvsOf recvs) prio (recvsOf order)

/-- `M` is generated code -/
def Code (a1 : String) (c : Ctx) (M : Mach) : Prop := Compiled c (nodes a1) (recvsOf recvs) prio M

/-- what it means -/
def sys (a1 : String) (c : Ctx) : Control.Sys St Msg := (mach a1 c).sys

/-- kinds and connections -/
def shape : Shape :=
  [(.graph [1], [[(8, 0)]]),
   (.inlet, [[(3, 0)]]),
   (.outlet 0 0, []),
   (.graph [4, 7], [[(2, 0)]]),
   (.inlet, [[(6, 0)]]),
   (.outlet 3 0, []),
   (.obj, [[(5, 0)]]),
   (.inlet, [[(6, 1)]]),
   (.obj, []),
   (.obj, [[(0, 0)]])]

theorem shape_eq (a1 : String) : shapeOf (nodes a1) = shape := rfl

theorem checked (a1 : String) : check (shapeOf (nodes a1)) recvs order prio [0, 0, 0, 0, 0, 0, 0, 0, 0, 0] = true := by
  rw [shape_eq]
  decide +kernel

theorem classes (a1 : String) : clsOK (nodes a1) = true := rfl

theorem drv_valid (a1 : String) {i : Nat} (h : i < 1) (m : Msg) : (Control.Src.outlet (drv i) 0 m).Valid (mkPatch (nodes a1) (recvsOf recvs) prio) (nodes a1).length := by
  have : i = 0 := by omega
  rcases this with rfl <;> exact ⟨Nat.le_of_ble_eq_true rfl, rfl, Nat.le_of_ble_eq_true rfl⟩

/-- messages for the inlets there are -/
def Inlet : Ev → Prop
  | .ext _ i _ => i < 1
  | .tick => True

theorem driven (a1 : String) {e : Ev} (h : Inlet e) : Driven (nodes a1) (recvsOf recvs) prio drv e := by
  cases e with
  | ext t i m => exact drv_valid a1 h
  | tick => trivial

theorem to_code {c : Ctx} {a1 : String} {M : Mach} (hM : Code a1 c M) {tab : Nat → List ℚ} {Fits : Ev → Prop} (hf : ∀ e, Fits e → Inlet e) {σ : Type}
    {on : σ → Ev → σ} {x0 : σ} {Sim : σ → St → Prop}
    (h : Simulates (mach a1 c) drv (start c (nodes a1) tab) Fits on x0 Sim) :
    Simulates M drv (start c (nodes a1) tab) Fits on x0 (fun x s => Sim x s ∧ GoodQ (nodes a1) s) :=
  h.code (checked a1) (classes a1) hM fun e he => driven a1 (hf e he)

/-- it compiles -/
theorem code_exists (a1 : String) (c : Ctx) : ∃ M, Code a1 c M := exists_compiled c (checked a1) (f := 20) (by rw [shape_eq]; decide +kernel)

/-! one lemma per object, for rewriting -/

theorem n0_0 (a1 : String) (c : Ctx) (m : Msg) : (sys a1 c).node (0, 0) m = .fwd false [((3, 0), m)] := rfl
theorem n2 (a1 : String) (c : Ctx) (i : Nat) (m : Msg) : (sys a1 c).node (2, i) m = .fwd false [((8, 0), m)] := rfl
theorem n3_0 (a1 : String) (c : Ctx) (m : Msg) : (sys a1 c).node (3, 0) m = .fwd false [((6, 0), m)] := rfl
theorem n3_1 (a1 : String) (c : Ctx) (m : Msg) : (sys a1 c).node (3, 1) m = .fwd false [((6, 1), m)] := rfl
theorem n5 (a1 : String) (c : Ctx) (i : Nat) (m : Msg) : (sys a1 c).node (5, i) m = .fwd false [((2, 0), m)] := rfl
theorem n6 (a1 : String) (c : Ctx) (i : Nat) (m : Msg) : (sys a1 c).node (6, i) m = .obj (beh c (.var (.sym a1)) 6 i m) := rfl
theorem o6_0 (a1 : String) (c : Ctx) : (sys a1 c).out 6 0 = [(5, 0)] := rfl
theorem n8 (a1 : String) (c : Ctx) (i : Nat) (m : Msg) : (sys a1 c).node (8, i) m = .obj (beh c (.probe 0) 8 i m) := rfl
theorem n9 (a1 : String) (c : Ctx) (i : Nat) (m : Msg) : (sys a1 c).node (9, i) m = .obj (beh c (.none) 9 i m) := rfl
theorem o9_0 (a1 : String) (c : Ctx) : (sys a1 c).out 9 0 = [(0, 0)] := rfl

attribute [lib_symbolatom] n0_0 n2 n3_0 n3_1 n5 n6 o6_0 n8 n9 o9_0

end Verif.Lib.Symbolatom
