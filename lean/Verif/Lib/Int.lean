import Verif.LibSim
/-!
The abstraction `[int]`: transcription of hvcc/interpreters/pd2hv/libs/pd/int.pd and of the library files it uses, made by
tools/pdlib.py.  Object `0` is the abstraction itself, its outlets are connected to `.probe`s.
-/
set_option linter.unusedVariables false
set_option linter.style.longLine false
set_option maxRecDepth 100000
namespace Verif.Lib.Int
open Verif.Control (Dest Kind Cast Patch)

/-- the objects of hvcc/interpreters/pd2hv/libs/pd/int.pd: kind, connections of each outlet, class -/
def nodes (a1 : ℚ) : List Node :=
  [⟨.graph [1, 7], [[(14, 0)]], .none⟩,  -- 0: int
   ⟨.inlet, [[(2, 0)]], .none⟩,  -- 1: int, object 0: inlet
   ⟨.graph [5, 6], [[(13, 0)]], .none⟩,  -- 2: int, object 1: f \$1
   ⟨.obj, [[(4, 0)]], .var (.float a1)⟩,  -- 3: f, object 1: pd @hv_obj __var \$1
   ⟨.outlet 2 0, [], .none⟩,  -- 4: f, object 2: outlet
   ⟨.inlet, [[(3, 0)]], .none⟩,  -- 5: f, object 3: inlet -->
   ⟨.inlet, [[(3, 1)]], .none⟩,  -- 6: f, object 4: inlet -->
   ⟨.inlet, [[(2, 1)]], .none⟩,  -- 7: int, object 2: inlet
   ⟨.outlet 0 0, [], .none⟩,  -- 8: int, object 3: outlet
   ⟨.obj, [[(12, 0)], [(11, 0)]], .ite a1⟩,  -- 9: int, object 4: pd @hv_obj if \$1
   ⟨.obj, [[(9, 1)]], .bink .gt 0⟩,  -- 10: int, object 5: > 0
   ⟨.obj, [[(8, 0)]], .un .floor⟩,  -- 11: int, object 6: pd @hv_obj __floor
   ⟨.obj, [[(8, 0)]], .un .ceil⟩,  -- 12: int, object 7: pd @hv_obj __ceil
   ⟨.seq [none, none], [[(9, 0)], [(10, 0)]], .none⟩,  -- 13: int, object 9: t a a
   ⟨.obj, [], .probe 0⟩,  -- 14: outlet 0 of the abstraction
   ⟨.obj, [[(0, 0)]], .none⟩,  -- 15: an object of the surrounding patch, connected to inlet 0
   ⟨.obj, [[(0, 1)]], .none⟩]  -- 16: an object of the surrounding patch, connected to inlet 1

/-- receivers by name, in the order of the file: 0 = __hv_init -/
def recvs : List (List Nat) := [[]]

/-- priorities of receivers, PdReceiveObject.py:96-100 -/
def prio : Nat → Int
  | _ => 0

/-- the receivers in the order in which they fire -/
def order : List (List Nat) := [[]]

/-- the object connected to inlet `i` -/
def drv (i : Nat) : Nat := 15 + i

/-- the abstraction as it is (`Verif.Control`: C45, C35) -/
def mach (a1 : ℚ) (c : Ctx) : Mach := source c (nodes a1) (recvsOf recvs) prio (recvsOf order)

/-- `M` is generated code -/
def Code (a1 : ℚ) (c : Ctx) (M : Mach) : Prop := Compiled c (nodes a1) (recvsOf recvs) prio M

/-- what it means -/
def sys (a1 : ℚ) (c : Ctx) : Control.Sys St Msg := (mach a1 c).sys

/-- kinds and connections -/
def shape : Shape :=
  [(.graph [1, 7], [[(14, 0)]]),
   (.inlet, [[(2, 0)]]),
   (.graph [5, 6], [[(13, 0)]]),
   (.obj, [[(4, 0)]]),
   (.outlet 2 0, []),
   (.inlet, [[(3, 0)]]),
   (.inlet, [[(3, 1)]]),
   (.inlet, [[(2, 1)]]),
   (.outlet 0 0, []),
   (.obj, [[(12, 0)], [(11, 0)]]),
   (.obj, [[(9, 1)]]),
   (.obj, [[(8, 0)]]),
   (.obj, [[(8, 0)]]),
   (.seq [none, none], [[(9, 0)], [(10, 0)]]),
   (.obj, []),
   (.obj, [[(0, 0)]]),
   (.obj, [[(0, 1)]])]

theorem shape_eq (a1 : ℚ) : shapeOf (nodes a1) = shape := rfl

theorem checked (a1 : ℚ) : check (shapeOf (nodes a1)) recvs order prio [0, 0, 0, 0, 0, 0, 0, 0, 0, 0, 0, 0, 0, 1, 0, 0, 0] = true := by
  rw [shape_eq]
  decide +kernel

theorem classes (a1 : ℚ) : clsOK (nodes a1) = true := rfl

theorem drv_valid (a1 : ℚ) {i : Nat} (h : i < 2) (m : Msg) : (Control.Src.outlet (drv i) 0 m).Valid (mkPatch (nodes a1) (recvsOf recvs) prio) (nodes a1).length := by
  have : i = 0 ∨ i = 1 := by omega
  rcases this with rfl | rfl <;> exact ⟨Nat.le_of_ble_eq_true rfl, rfl, Nat.le_of_ble_eq_true rfl⟩

/-- messages for the inlets there are -/
def Inlet : Ev → Prop
  | .ext _ i _ => i < 2
  | .tick => True

theorem driven (a1 : ℚ) {e : Ev} (h : Inlet e) : Driven (nodes a1) (recvsOf recvs) prio drv e := by
  cases e with
  | ext t i m => exact drv_valid a1 h
  | tick => trivial

theorem to_code {c : Ctx} {a1 : ℚ} {M : Mach} (hM : Code a1 c M) {tab : Nat → List ℚ} {Fits : Ev → Prop} (hf : ∀ e, Fits e → Inlet e) {σ : Type}
    {on : σ → Ev → σ} {x0 : σ} {Sim : σ → St → Prop}
    (h : Simulates (mach a1 c) drv (start c (nodes a1) tab) Fits on x0 Sim) :
    Simulates M drv (start c (nodes a1) tab) Fits on x0 (fun x s => Sim x s ∧ GoodQ (nodes a1) s) :=
  h.code (checked a1) (classes a1) hM fun e he => driven a1 (hf e he)

/-- it compiles -/
theorem code_exists (a1 : ℚ) (c : Ctx) : ∃ M, Code a1 c M := exists_compiled c (checked a1) (f := 20) (by rw [shape_eq]; decide +kernel)

/-! one lemma per object, for rewriting -/

theorem n0_0 (a1 : ℚ) (c : Ctx) (m : Msg) : (sys a1 c).node (0, 0) m = .fwd false [((2, 0), m)] := rfl
theorem n0_1 (a1 : ℚ) (c : Ctx) (m : Msg) : (sys a1 c).node (0, 1) m = .fwd false [((2, 1), m)] := rfl
theorem n2_0 (a1 : ℚ) (c : Ctx) (m : Msg) : (sys a1 c).node (2, 0) m = .fwd false [((3, 0), m)] := rfl
theorem n2_1 (a1 : ℚ) (c : Ctx) (m : Msg) : (sys a1 c).node (2, 1) m = .fwd false [((3, 1), m)] := rfl
theorem n3 (a1 : ℚ) (c : Ctx) (i : Nat) (m : Msg) : (sys a1 c).node (3, i) m = .obj (beh c (.var (.float a1)) 3 i m) := rfl
theorem o3_0 (a1 : ℚ) (c : Ctx) : (sys a1 c).out 3 0 = [(4, 0)] := rfl
theorem n4 (a1 : ℚ) (c : Ctx) (i : Nat) (m : Msg) : (sys a1 c).node (4, i) m = .fwd false [((13, 0), m)] := rfl
theorem n8 (a1 : ℚ) (c : Ctx) (i : Nat) (m : Msg) : (sys a1 c).node (8, i) m = .fwd false [((14, 0), m)] := rfl
theorem n9 (a1 : ℚ) (c : Ctx) (i : Nat) (m : Msg) : (sys a1 c).node (9, i) m = .obj (beh c (.ite a1) 9 i m) := rfl
theorem o9_0 (a1 : ℚ) (c : Ctx) : (sys a1 c).out 9 0 = [(12, 0)] := rfl
theorem o9_1 (a1 : ℚ) (c : Ctx) : (sys a1 c).out 9 1 = [(11, 0)] := rfl
theorem n10 (a1 : ℚ) (c : Ctx) (i : Nat) (m : Msg) : (sys a1 c).node (10, i) m = .obj (beh c (.bink .gt 0) 10 i m) := rfl
theorem o10_0 (a1 : ℚ) (c : Ctx) : (sys a1 c).out 10 0 = [(9, 1)] := rfl
theorem n11 (a1 : ℚ) (c : Ctx) (i : Nat) (m : Msg) : (sys a1 c).node (11, i) m = .obj (beh c (.un .floor) 11 i m) := rfl
theorem o11_0 (a1 : ℚ) (c : Ctx) : (sys a1 c).out 11 0 = [(8, 0)] := rfl
theorem n12 (a1 : ℚ) (c : Ctx) (i : Nat) (m : Msg) : (sys a1 c).node (12, i) m = .obj (beh c (.un .ceil) 12 i m) := rfl
theorem o12_0 (a1 : ℚ) (c : Ctx) : (sys a1 c).out 12 0 = [(8, 0)] := rfl
theorem n13 (a1 : ℚ) (c : Ctx) (i : Nat) (m : Msg) : (sys a1 c).node (13, i) m = .fwd false ([((10, 0), m)] ++ ([((9, 0), m)] ++ ([]))) := rfl
theorem n14 (a1 : ℚ) (c : Ctx) (i : Nat) (m : Msg) : (sys a1 c).node (14, i) m = .obj (beh c (.probe 0) 14 i m) := rfl
theorem n15 (a1 : ℚ) (c : Ctx) (i : Nat) (m : Msg) : (sys a1 c).node (15, i) m = .obj (beh c (.none) 15 i m) := rfl
theorem o15_0 (a1 : ℚ) (c : Ctx) : (sys a1 c).out 15 0 = [(0, 0)] := rfl
theorem n16 (a1 : ℚ) (c : Ctx) (i : Nat) (m : Msg) : (sys a1 c).node (16, i) m = .obj (beh c (.none) 16 i m) := rfl
theorem o16_0 (a1 : ℚ) (c : Ctx) : (sys a1 c).out 16 0 = [(0, 1)] := rfl

attribute [lib_int] n0_0 n0_1 n2_0 n2_1 n3 o3_0 n4 n8 n9 o9_0 o9_1 n10 o10_0 n11 o11_0 n12 o12_0 n13 n14 n15 o15_0 n16 o16_0

end Verif.Lib.Int
