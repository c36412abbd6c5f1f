import Verif.LibSim
/-!
The abstraction `[swap]`: transcription of hvcc/interpreters/pd2hv/libs/pd/swap.pd and of the library files it uses, made by
tools/pdlib.py.  Object `0` is the abstraction itself, its outlets are connected to `.probe`s.
-/
set_option linter.unusedVariables false
set_option linter.style.longLine false
set_option maxRecDepth 100000
namespace Verif.Lib.Swap
open Verif.Control (Dest Kind Cast Patch)

/-- the objects of hvcc/interpreters/pd2hv/libs/pd/swap.pd: kind, connections of each outlet, class -/
def nodes (a1 : ℚ) : List Node :=
  [⟨.graph [1, 2], [[(18, 0)], [(19, 0)]], .none⟩,  -- 0: swap
   ⟨.inlet, [[(17, 0)]], .none⟩,  -- 1: swap, object 0: inlet
   ⟨.inlet, [[(12, 1)]], .none⟩,  -- 2: swap, object 1: inlet
   ⟨.outlet 0 0, [], .none⟩,  -- 3: swap, object 2: outlet
   ⟨.outlet 0 1, [], .none⟩,  -- 4: swap, object 3: outlet
   ⟨.graph [8, 9], [[(4, 0)]], .none⟩,  -- 5: swap, object 4: f
   ⟨.obj, [[(7, 0)]], .var (.float 0)⟩,  -- 6: f, object 1: pd @hv_obj __var \$1
   ⟨.outlet 5 0, [], .none⟩,  -- 7: f, object 2: outlet
   ⟨.inlet, [[(6, 0)]], .none⟩,  -- 8: f, object 3: inlet -->
   ⟨.inlet, [[(6, 1)]], .none⟩,  -- 9: f, object 4: inlet -->
   ⟨.seq [some .bang, some .bang], [[(12, 0)], [(5, 0)]], .none⟩,  -- 10: swap, object 5: t b b
   ⟨.seq [some .bang, some .float], [[(12, 0)], [(5, 0)]], .none⟩,  -- 11: swap, object 6: t b f
   ⟨.graph [15, 16], [[(3, 0)]], .none⟩,  -- 12: swap, object 7: f \$1
   ⟨.obj, [[(14, 0)]], .var (.float a1)⟩,  -- 13: f, object 1: pd @hv_obj __var \$1
   ⟨.outlet 12 0, [], .none⟩,  -- 14: f, object 2: outlet
   ⟨.inlet, [[(13, 0)]], .none⟩,  -- 15: f, object 3: inlet -->
   ⟨.inlet, [[(13, 1)]], .none⟩,  -- 16: f, object 4: inlet -->
   ⟨.obj, [[(10, 0)], [(11, 0)]], .switch [.bang]⟩,  -- 17: swap, object 8: pd @hv_obj __switchcase bang
   ⟨.obj, [], .probe 0⟩,  -- 18: outlet 0 of the abstraction
   ⟨.obj, [], .probe 1⟩,  -- 19: outlet 1 of the abstraction
   ⟨.obj, [[(0, 0)]], .none⟩,  -- 20: an object of the surrounding patch, connected to inlet 0
   ⟨.obj, [[(0, 1)]], .none⟩]  -- 21: an object of the surrounding patch, connected to inlet 1

/-- receivers by name, in the order of the file: 0 = __hv_init -/
def recvs : List (List Nat) := [[]]

/-- priorities of receivers, PdReceiveObject.py:96-100 -/
def prio : Nat → Int
  | _ => 0

/-- the receivers in the order in which they fire -/
def order : List (List Nat) := [[]]

/-- the object connected to inlet `i` -/
def drv (i : Nat) : Nat := 20 + i

/-- the abstraction as it is (`Verif.Control`: C45, C35) -/
def mach (a1 : ℚ) (c : Ctx) : Mach := source c (nodes a1) (recvsOf recvs) prio (recvsOf order)

/-- `M` is generated code -/
def Code (a1 : ℚ) (c : Ctx) (M : Mach) : Prop := Compiled c (nodes a1) (recvsOf recvs) prio M

/-- what it means -/
def sys (a1 : ℚ) (c : Ctx) : Control.Sys St Msg := (mach a1 c).sys

/-- kinds and connections -/
def shape : Shape :=
  [(.graph [1, 2], [[(18, 0)], [(19, 0)]]),
   (.inlet, [[(17, 0)]]),
   (.inlet, [[(12, 1)]]),
   (.outlet 0 0, []),
   (.outlet 0 1, []),
   (.graph [8, 9], [[(4, 0)]]),
   (.obj, [[(7, 0)]]),
   (.outlet 5 0, []),
   (.inlet, [[(6, 0)]]),
   (.inlet, [[(6, 1)]]),
   (.seq [some .bang, some .bang], [[(12, 0)], [(5, 0)]]),
   (.seq [some .bang, some .float], [[(12, 0)], [(5, 0)]]),
   (.graph [15, 16], [[(3, 0)]]),
   (.obj, [[(14, 0)]]),
   (.outlet 12 0, []),
   (.inlet, [[(13, 0)]]),
   (.inlet, [[(13, 1)]]),
   (.obj, [[(10, 0)], [(11, 0)]]),
   (.obj, []),
   (.obj, []),
   (.obj, [[(0, 0)]]),
   (.obj, [[(0, 1)]])]

theorem shape_eq (a1 : ℚ) : shapeOf (nodes a1) = shape := rfl

theorem checked (a1 : ℚ) : check (shapeOf (nodes a1)) recvs order prio [0, 0, 0, 0, 0, 0, 0, 0, 0, 0, 1, 1, 0, 0, 0, 0, 0, 0, 0, 0, 0, 0] = true := by
  rw [shape_eq]
  decide +kernel

theorem classes (a1 : ℚ) : clsOK (nodes a1) = true := rfl

theorem drv_valid (a1 : ℚ) {i : Nat} (h : i < 2) (m : Msg) : (Control.Src.outlet (drv i) 0 m).Valid (mkPatch (nodes a1) (recvsOf recvs) prio) (nodes a1).length := by
  have : i = 0 ∨ i = 1 := by omega
  rcases this with rfl | rfl <;> exact ⟨Nat.le_of_ble_eq_true rfl, rfl, Nat.le_of_ble_eq_true rfl⟩

/-- messages for the inlets there are -/
def Inlet : Ev → Prop
  | .ext _ i _ => i < 2
  | .tick => True

theorem driven (a1 : ℚ) {e : Ev} (h : Inlet e) : Driven (nodes a1) (recvsOf recvs) prio drv e := by
  cases e with
  | ext t i m => exact drv_valid a1 h
  | tick => trivial

theorem to_code {c : Ctx} {a1 : ℚ} {M : Mach} (hM : Code a1 c M) {tab : Nat → List ℚ} {Fits : Ev → Prop} (hf : ∀ e, Fits e → Inlet e) {σ : Type}
    {on : σ → Ev → σ} {x0 : σ} {Sim : σ → St → Prop}
    (h : Simulates (mach a1 c) drv (start c (nodes a1) tab) Fits on x0 Sim) :
    Simulates M drv (start c (nodes a1) tab) Fits on x0 (fun x s => Sim x s ∧ GoodQ (nodes a1) s) :=
  h.code (checked a1) (classes a1) hM fun e he => driven a1 (hf e he)

/-- it compiles -/
theorem code_exists (a1 : ℚ) (c : Ctx) : ∃ M, Code a1 c M := exists_compiled c (checked a1) (f := 20) (by rw [shape_eq]; decide +kernel)

/-! one lemma per object, for rewriting -/

theorem n0_0 (a1 : ℚ) (c : Ctx) (m : Msg) : (sys a1 c).node (0, 0) m = .fwd false [((17, 0), m)] := rfl
theorem n0_1 (a1 : ℚ) (c : Ctx) (m : Msg) : (sys a1 c).node (0, 1) m = .fwd false [((12, 1), m)] := rfl
theorem n3 (a1 : ℚ) (c : Ctx) (i : Nat) (m : Msg) : (sys a1 c).node (3, i) m = .fwd false [((18, 0), m)] := rfl
theorem n4 (a1 : ℚ) (c : Ctx) (i : Nat) (m : Msg) : (sys a1 c).node (4, i) m = .fwd false [((19, 0), m)] := rfl
theorem n5_0 (a1 : ℚ) (c : Ctx) (m : Msg) : (sys a1 c).node (5, 0) m = .fwd false [((6, 0), m)] := rfl
theorem n5_1 (a1 : ℚ) (c : Ctx) (m : Msg) : (sys a1 c).node (5, 1) m = .fwd false [((6, 1), m)] := rfl
theorem n6 (a1 : ℚ) (c : Ctx) (i : Nat) (m : Msg) : (sys a1 c).node (6, i) m = .obj (beh c (.var (.float 0)) 6 i m) := rfl
theorem o6_0 (a1 : ℚ) (c : Ctx) : (sys a1 c).out 6 0 = [(7, 0)] := rfl
theorem n7 (a1 : ℚ) (c : Ctx) (i : Nat) (m : Msg) : (sys a1 c).node (7, i) m = .fwd false [((4, 0), m)] := rfl
theorem n10 (a1 : ℚ) (c : Ctx) (i : Nat) (m : Msg) : (sys a1 c).node (10, i) m = .fwd false (castTo .bang [(5, 0)] m ++ (castTo .bang [(12, 0)] m ++ ([]))) := rfl
theorem n11 (a1 : ℚ) (c : Ctx) (i : Nat) (m : Msg) : (sys a1 c).node (11, i) m = .fwd false (castTo .float [(5, 0)] m ++ (castTo .bang [(12, 0)] m ++ ([]))) := by rcases m with _ | ⟨_ | _ | _, _⟩ <;> rfl
theorem n12_0 (a1 : ℚ) (c : Ctx) (m : Msg) : (sys a1 c).node (12, 0) m = .fwd false [((13, 0), m)] := rfl
theorem n12_1 (a1 : ℚ) (c : Ctx) (m : Msg) : (sys a1 c).node (12, 1) m = .fwd false [((13, 1), m)] := rfl
theorem n13 (a1 : ℚ) (c : Ctx) (i : Nat) (m : Msg) : (sys a1 c).node (13, i) m = .obj (beh c (.var (.float a1)) 13 i m) := rfl
theorem o13_0 (a1 : ℚ) (c : Ctx) : (sys a1 c).out 13 0 = [(14, 0)] := rfl
theorem n14 (a1 : ℚ) (c : Ctx) (i : Nat) (m : Msg) : (sys a1 c).node (14, i) m = .fwd false [((3, 0), m)] := rfl
theorem n17 (a1 : ℚ) (c : Ctx) (i : Nat) (m : Msg) : (sys a1 c).node (17, i) m = .obj (beh c (.switch [.bang]) 17 i m) := rfl
theorem o17_0 (a1 : ℚ) (c : Ctx) : (sys a1 c).out 17 0 = [(10, 0)] := rfl
theorem o17_1 (a1 : ℚ) (c : Ctx) : (sys a1 c).out 17 1 = [(11, 0)] := rfl
theorem n18 (a1 : ℚ) (c : Ctx) (i : Nat) (m : Msg) : (sys a1 c).node (18, i) m = .obj (beh c (.probe 0) 18 i m) := rfl
theorem n19 (a1 : ℚ) (c : Ctx) (i : Nat) (m : Msg) : (sys a1 c).node (19, i) m = .obj (beh c (.probe 1) 19 i m) := rfl
theorem n20 (a1 : ℚ) (c : Ctx) (i : Nat) (m : Msg) : (sys a1 c).node (20, i) m = .obj (beh c (.none) 20 i m) := rfl
theorem o20_0 (a1 : ℚ) (c : Ctx) : (sys a1 c).out 20 0 = [(0, 0)] := rfl
theorem n21 (a1 : ℚ) (c : Ctx) (i : Nat) (m : Msg) : (sys a1 c).node (21, i) m = .obj (beh c (.none) 21 i m) := rfl
theorem o21_0 (a1 : ℚ) (c : Ctx) : (sys a1 c).out 21 0 = [(0, 1)] := rfl

attribute [lib_swap] n0_0 n0_1 n3 n4 n5_0 n5_1 n6 o6_0 n7 n10 n11 n12_0 n12_1 n13 o13_0 n14 n17 o17_0 o17_1 n18 n19 n20 o20_0 n21 o21_0

end Verif.Lib.Swap
