import Verif.LibSim
/-!
The abstraction `[change]`: transcription of hvcc/interpreters/pd2hv/libs/pd/change.pd and of the library files it uses, made by
tools/pdlib.py.  Object `0` is the abstraction itself, its outlets are connected to `.probe`s.
-/
set_option linter.unusedVariables false
set_option linter.style.longLine false
set_option maxRecDepth 100000
namespace Verif.Lib.Change
open Verif.Control (Dest Kind Cast Patch)

/-- the objects of hvcc/interpreters/pd2hv/libs/pd/change.pd: kind, connections of each outlet, class -/
def nodes (a1 : ℚ) : List Node :=
  [⟨.graph [14], [[(21, 0)]], .none⟩,  -- 0: change
   ⟨.obj, [[], [(2, 0)]], .ite 0⟩,  -- 1: change, object 0: pd @hv_obj if
   ⟨.seq [some .float, some .float], [[(16, 0)], [(13, 1)]], .none⟩,  -- 2: change, object 1: t f f
   ⟨.outlet 0 0, [], .none⟩,  -- 3: change, object 2: outlet
   ⟨.graph [5, 6], [[(16, 0)], [(13, 1), (16, 1)], [(15, 0)]], .none⟩,  -- 4: change, object 3: route bang set
   ⟨.inlet, [[(7, 0)]], .none⟩,  -- 5: change, object 3: route bang set
   ⟨.inlet, [[]], .none⟩,  -- 6: change, object 3: route bang set
   ⟨.obj, [[(9, 0)], [(11, 0)], [(8, 0)]], .switch [.bang, (.sym "set")]⟩,  -- 7: change, object 3: route bang set
   ⟨.outlet 4 2, [], .none⟩,  -- 8: change, object 3: route bang set
   ⟨.obj, [[(10, 0)], [(10, 0)]], .slice 1 0⟩,  -- 9: change, object 3: route bang set
   ⟨.outlet 4 0, [], .none⟩,  -- 10: change, object 3: route bang set
   ⟨.obj, [[(12, 0)], [(12, 0)]], .slice 1 0⟩,  -- 11: change, object 3: route bang set
   ⟨.outlet 4 1, [], .none⟩,  -- 12: change, object 3: route bang set
   ⟨.obj, [[(1, 1)]], .bin .neq a1⟩,  -- 13: change, object 4: != \$1
   ⟨.inlet, [[(4, 0)]], .none⟩,  -- 14: change, object 6: inlet
   ⟨.seq [some .float, some .float], [[(1, 0)], [(13, 0)]], .none⟩,  -- 15: change, object 7: t f f
   ⟨.graph [19, 20], [[(3, 0)]], .none⟩,  -- 16: change, object 8: f \$1
   ⟨.obj, [[(18, 0)]], .var (.float a1)⟩,  -- 17: f, object 1: pd @hv_obj __var \$1
   ⟨.outlet 16 0, [], .none⟩,  -- 18: f, object 2: outlet
   ⟨.inlet, [[(17, 0)]], .none⟩,  -- 19: f, object 3: inlet -->
   ⟨.inlet, [[(17, 1)]], .none⟩,  -- 20: f, object 4: inlet -->
   ⟨.obj, [], .probe 0⟩,  -- 21: outlet 0 of the abstraction
   ⟨.obj, [[(0, 0)]], .none⟩]  -- 22: an object of the surrounding patch, connected to inlet 0

/-- receivers by name, in the order of the file: 0 = __hv_init -/
def recvs : List (List Nat) := [[]]

/-- priorities of receivers, PdReceiveObject.py:96-100 -/
def prio : Nat → Int
  | _ => 0

/-- the receivers in the order in which they fire -/
def order : List (List Nat) := [[]]

/-- the object connected to inlet `i` -/
def drv (i : Nat) : Nat := 22 + i

/-- the abstraction as it is (`Verif.Control`: C45, C35) -/
def mach (a1 : ℚ) (c : Ctx) : Mach := source c (nodes a1) (recvsOf recvs) prio (recvsOf order)

/-- `M` is generated code -/
def Code (a1 : ℚ) (c : Ctx) (M : Mach) : Prop := Compiled c (nodes a1) (recvsOf recvs) prio M

/-- what it means -/
def sys (a1 : ℚ) (c : Ctx) : Control.Sys St Msg := (mach a1 c).sys

/-- kinds and connections -/
def shape : Shape :=
  [(.graph [14], [[(21, 0)]]),
   (.obj, [[], [(2, 0)]]),
   (.seq [some .float, some .float], [[(16, 0)], [(13, 1)]]),
   (.outlet 0 0, []),
   (.graph [5, 6], [[(16, 0)], [(13, 1), (16, 1)], [(15, 0)]]),
   (.inlet, [[(7, 0)]]),
   (.inlet, [[]]),
   (.obj, [[(9, 0)], [(11, 0)], [(8, 0)]]),
   (.outlet 4 2, []),
   (.obj, [[(10, 0)], [(10, 0)]]),
   (.outlet 4 0, []),
   (.obj, [[(12, 0)], [(12, 0)]]),
   (.outlet 4 1, []),
   (.obj, [[(1, 1)]]),
   (.inlet, [[(4, 0)]]),
   (.seq [some .float, some .float], [[(1, 0)], [(13, 0)]]),
   (.graph [19, 20], [[(3, 0)]]),
   (.obj, [[(18, 0)]]),
   (.outlet 16 0, []),
   (.inlet, [[(17, 0)]]),
   (.inlet, [[(17, 1)]]),
   (.obj, []),
   (.obj, [[(0, 0)]])]

theorem shape_eq (a1 : ℚ) : shapeOf (nodes a1) = shape := rfl

theorem checked (a1 : ℚ) : check (shapeOf (nodes a1)) recvs order prio [0, 0, 1, 0, 0, 0, 0, 0, 0, 0, 0, 0, 0, 0, 0, 1, 0, 0, 0, 0, 0, 0, 0] = true := by
  rw [shape_eq]
  decide +kernel

theorem classes (a1 : ℚ) : clsOK (nodes a1) = true := rfl

theorem drv_valid (a1 : ℚ) {i : Nat} (h : i < 1) (m : Msg) : (Control.Src.outlet (drv i) 0 m).Valid (mkPatch (nodes a1) (recvsOf recvs) prio) (nodes a1).length := by
  have : i = 0 := by omega
  rcases this with rfl <;> exact ⟨Nat.le_of_ble_eq_true rfl, rfl, Nat.le_of_ble_eq_true rfl⟩

/-- messages for the inlets there are -/
def Inlet : Ev → Prop
  | .ext _ i _ => i < 1
  | .tick => True

theorem driven (a1 : ℚ) {e : Ev} (h : Inlet e) : Driven (nodes a1) (recvsOf recvs) prio drv e := by
  cases e with
  | ext t i m => exact drv_valid a1 h
  | tick => trivial

theorem to_code {c : Ctx} {a1 : ℚ} {M : Mach} (hM : Code a1 c M) {tab : Nat → List ℚ} {Fits : Ev → Prop} (hf : ∀ e, Fits e → Inlet e) {σ : Type}
    {on : σ → Ev → σ} {x0 : σ} {Sim : σ → St → Prop}
    (h : Simulates (mach a1 c) drv (start c (nodes a1) tab) Fits on x0 Sim) :
    Simulates M drv (start c (nodes a1) tab) Fits on x0 (fun x s => Sim x s ∧ GoodQ (nodes a1) s) :=
  h.code (checked a1) (classes a1) hM fun e he => driven a1 (hf e he)

/-- it compiles -/
theorem code_exists (a1 : ℚ) (c : Ctx) : ∃ M, Code a1 c M := exists_compiled c (checked a1) (f := 20) (by rw [shape_eq]; decide +kernel)

/-! one lemma per object, for rewriting -/

theorem n0_0 (a1 : ℚ) (c : Ctx) (m : Msg) : (sys a1 c).node (0, 0) m = .fwd false [((4, 0), m)] := rfl
theorem n1 (a1 : ℚ) (c : Ctx) (i : Nat) (m : Msg) : (sys a1 c).node (1, i) m = .obj (beh c (.ite 0) 1 i m) := rfl
theorem o1_0 (a1 : ℚ) (c : Ctx) : (sys a1 c).out 1 0 = [] := rfl
theorem o1_1 (a1 : ℚ) (c : Ctx) : (sys a1 c).out 1 1 = [(2, 0)] := rfl
theorem n2 (a1 : ℚ) (c : Ctx) (i : Nat) (m : Msg) : (sys a1 c).node (2, i) m = .fwd false (castTo .float [(13, 1)] m ++ (castTo .float [(16, 0)] m ++ ([]))) := by rcases m with _ | ⟨_ | _ | _, _⟩ <;> rfl
theorem n3 (a1 : ℚ) (c : Ctx) (i : Nat) (m : Msg) : (sys a1 c).node (3, i) m = .fwd false [((21, 0), m)] := rfl
theorem n4_0 (a1 : ℚ) (c : Ctx) (m : Msg) : (sys a1 c).node (4, 0) m = .fwd false [((7, 0), m)] := rfl
theorem n4_1 (a1 : ℚ) (c : Ctx) (m : Msg) : (sys a1 c).node (4, 1) m = .fwd false [] := rfl
theorem n7 (a1 : ℚ) (c : Ctx) (i : Nat) (m : Msg) : (sys a1 c).node (7, i) m = .obj (beh c (.switch [.bang, (.sym "set")]) 7 i m) := rfl
theorem o7_0 (a1 : ℚ) (c : Ctx) : (sys a1 c).out 7 0 = [(9, 0)] := rfl
theorem o7_1 (a1 : ℚ) (c : Ctx) : (sys a1 c).out 7 1 = [(11, 0)] := rfl
theorem o7_2 (a1 : ℚ) (c : Ctx) : (sys a1 c).out 7 2 = [(8, 0)] := rfl
theorem n8 (a1 : ℚ) (c : Ctx) (i : Nat) (m : Msg) : (sys a1 c).node (8, i) m = .fwd false [((15, 0), m)] := rfl
theorem n9 (a1 : ℚ) (c : Ctx) (i : Nat) (m : Msg) : (sys a1 c).node (9, i) m = .obj (beh c (.slice 1 0) 9 i m) := rfl
theorem o9_0 (a1 : ℚ) (c : Ctx) : (sys a1 c).out 9 0 = [(10, 0)] := rfl
theorem o9_1 (a1 : ℚ) (c : Ctx) : (sys a1 c).out 9 1 = [(10, 0)] := rfl
theorem n10 (a1 : ℚ) (c : Ctx) (i : Nat) (m : Msg) : (sys a1 c).node (10, i) m = .fwd false [((16, 0), m)] := rfl
theorem n11 (a1 : ℚ) (c : Ctx) (i : Nat) (m : Msg) : (sys a1 c).node (11, i) m = .obj (beh c (.slice 1 0) 11 i m) := rfl
theorem o11_0 (a1 : ℚ) (c : Ctx) : (sys a1 c).out 11 0 = [(12, 0)] := rfl
theorem o11_1 (a1 : ℚ) (c : Ctx) : (sys a1 c).out 11 1 = [(12, 0)] := rfl
theorem n12 (a1 : ℚ) (c : Ctx) (i : Nat) (m : Msg) : (sys a1 c).node (12, i) m = .fwd false [((13, 1), m), ((16, 1), m)] := rfl
theorem n13 (a1 : ℚ) (c : Ctx) (i : Nat) (m : Msg) : (sys a1 c).node (13, i) m = .obj (beh c (.bin .neq a1) 13 i m) := rfl
theorem o13_0 (a1 : ℚ) (c : Ctx) : (sys a1 c).out 13 0 = [(1, 1)] := rfl
theorem n15 (a1 : ℚ) (c : Ctx) (i : Nat) (m : Msg) : (sys a1 c).node (15, i) m = .fwd false (castTo .float [(13, 0)] m ++ (castTo .float [(1, 0)] m ++ ([]))) := by rcases m with _ | ⟨_ | _ | _, _⟩ <;> rfl
theorem n16_0 (a1 : ℚ) (c : Ctx) (m : Msg) : (sys a1 c).node (16, 0) m = .fwd false [((17, 0), m)] := rfl
theorem n16_1 (a1 : ℚ) (c : Ctx) (m : Msg) : (sys a1 c).node (16, 1) m = .fwd false [((17, 1), m)] := rfl
theorem n17 (a1 : ℚ) (c : Ctx) (i : Nat) (m : Msg) : (sys a1 c).node (17, i) m = .obj (beh c (.var (.float a1)) 17 i m) := rfl
theorem o17_0 (a1 : ℚ) (c : Ctx) : (sys a1 c).out 17 0 = [(18, 0)] := rfl
theorem n18 (a1 : ℚ) (c : Ctx) (i : Nat) (m : Msg) : (sys a1 c).node (18, i) m = .fwd false [((3, 0), m)] := rfl
theorem n21 (a1 : ℚ) (c : Ctx) (i : Nat) (m : Msg) : (sys a1 c).node (21, i) m = .obj (beh c (.probe 0) 21 i m) := rfl
theorem n22 (a1 : ℚ) (c : Ctx) (i : Nat) (m : Msg) : (sys a1 c).node (22, i) m = .obj (beh c (.none) 22 i m) := rfl
theorem o22_0 (a1 : ℚ) (c : Ctx) : (sys a1 c).out 22 0 = [(0, 0)] := rfl

attribute [lib_change] n0_0 n1 o1_0 o1_1 n2 n3 n4_0 n4_1 n7 o7_0 o7_1 o7_2 n8 n9 o9_0 o9_1 n10 n11 o11_0 o11_1 n12 n13 o13_0 n15 n16_0 n16_1 n17 o17_0 n18 n21 n22 o22_0

end Verif.Lib.Change
