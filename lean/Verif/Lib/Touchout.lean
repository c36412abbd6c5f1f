import Verif.LibSim
/-!
The abstraction `[touchout]`: transcription of hvcc/interpreters/pd2hv/libs/pd/touchout.pd and of the library files it uses, made by
tools/pdlib.py.  Object `0` is the abstraction itself, its outlets are connected to `.probe`s.
-/
set_option linter.unusedVariables false
set_option linter.style.longLine false
set_option maxRecDepth 100000
namespace Verif.Lib.Touchout
open Verif.Control (Dest Kind Cast Patch)

/-- the objects of hvcc/interpreters/pd2hv/libs/pd/touchout.pd: kind, connections of each outlet, class -/
def nodes (a1 : ℚ) : List Node :=
  [⟨.graph [11, 2], [], .none⟩,  -- 0: touchout
   ⟨.obj, [[(12, 0)]], .pack [0, 0]⟩,  -- 1: touchout, object 0: pack f f
   ⟨.inlet, [[(3, 0)]], .none⟩,  -- 2: touchout, object 1: inlet channel
   ⟨.graph [6, 7], [[(13, 0)]], .none⟩,  -- 3: touchout, object 2: f \$1
   ⟨.obj, [[(5, 0)]], .var (.float a1)⟩,  -- 4: f, object 1: pd @hv_obj __var \$1
   ⟨.outlet 3 0, [], .none⟩,  -- 5: f, object 2: outlet
   ⟨.inlet, [[(4, 0)]], .none⟩,  -- 6: f, object 3: inlet -->
   ⟨.inlet, [[(4, 1)]], .none⟩,  -- 7: f, object 4: inlet -->
   ⟨.graph [], [[(3, 0)]], .none⟩,  -- 8: touchout, object 3: loadbang
   ⟨.recv, [[(10, 0)]], .none⟩,  -- 9: loadbang, object 0: r __hv_init \$1
   ⟨.outlet 8 0, [], .none⟩,  -- 10: loadbang, object 1: outlet
   ⟨.inlet, [[(1, 0)]], .none⟩,  -- 11: touchout, object 4: inlet touch
   ⟨.send 1, [[]], .none⟩,  -- 12: touchout, object 5: s __hv_touchout @hv_param
   ⟨.obj, [[(14, 0)]], .bink .sub 1⟩,  -- 13: touchout, object 6: - 1
   ⟨.obj, [[(1, 1)]], .bink .max 0⟩,  -- 14: touchout, object 7: max
   ⟨.obj, [[(0, 0)]], .none⟩,  -- 15: an object of the surrounding patch, connected to inlet 0
   ⟨.obj, [[(0, 1)]], .none⟩,  -- 16: an object of the surrounding patch, connected to inlet 1
   ⟨.recv, [[(18, 0)]], .none⟩,  -- 17: from __hv_touchout
   ⟨.obj, [], .probe 0⟩]  -- 18: what comes out of __hv_touchout: number 0

/-- receivers by name, in the order of the file: 0 = __hv_init, 1 = __hv_touchout -/
def recvs : List (List Nat) := [[9], [17]]

/-- priorities of receivers, PdReceiveObject.py:96-100 -/
def prio : Nat → Int
  | 9 => 999
  | 17 => -2
  | _ => 0

/-- the receivers in the order in which they fire -/
def order : List (List Nat) := [[9], [17]]

/-- the object connected to inlet `i` -/
def drv (i : Nat) : Nat := 15 + i

/-- the abstraction as it is (`Verif.Control`: C45, C35) -/
def mach (a1 : ℚ) (c : Ctx) : Mach := source c (nodes a1) (recvsOf recvs) prio (recvsOf order)

/-- `M` is generated code -/
def Code (a1 : ℚ) (c : Ctx) (M : Mach) : Prop := Compiled c (nodes a1) (recvsOf recvs) prio M

/-- what it means -/
def sys (a1 : ℚ) (c : Ctx) : Control.Sys St Msg := (mach a1 c).sys

/-- kinds and connections -/
def shape : Shape :=
  [(.graph [11, 2], []),
   (.obj, [[(12, 0)]]),
   (.inlet, [[(3, 0)]]),
   (.graph [6, 7], [[(13, 0)]]),
   (.obj, [[(5, 0)]]),
   (.outlet 3 0, []),
   (.inlet, [[(4, 0)]]),
   (.inlet, [[(4, 1)]]),
   (.graph [], [[(3, 0)]]),
   (.recv, [[(10, 0)]]),
   (.outlet 8 0, []),
   (.inlet, [[(1, 0)]]),
   (.send 1, [[]]),
   (.obj, [[(14, 0)]]),
   (.obj, [[(1, 1)]]),
   (.obj, [[(0, 0)]]),
   (.obj, [[(0, 1)]]),
   (.recv, [[(18, 0)]]),
   (.obj, [])]

theorem shape_eq (a1 : ℚ) : shapeOf (nodes a1) = shape := rfl

theorem checked (a1 : ℚ) : check (shapeOf (nodes a1)) recvs order prio [0, 0, 0, 0, 0, 0, 0, 0, 0, 0, 0, 0, 0, 0, 0, 0, 0, 0, 0] = true := by
  rw [shape_eq]
  decide +kernel

theorem classes (a1 : ℚ) : clsOK (nodes a1) = true := rfl

theorem drv_valid (a1 : ℚ) {i : Nat} (h : i < 2) (m : Msg) : (Control.Src.outlet (drv i) 0 m).Valid (mkPatch (nodes a1) (recvsOf recvs) prio) (nodes a1).length := by
  have : i = 0 ∨ i = 1 := by omega
  rcases this with rfl | rfl <;> exact ⟨Nat.le_of_ble_eq_true rfl, rfl, Nat.le_of_ble_eq_true rfl⟩

/-- messages for the inlets there are -/
def Inlet : Ev → Prop
  | .ext _ i _ => i < 2
  | .tick => True

theorem driven (a1 : ℚ) {e : Ev} (h : Inlet e) : Driven (nodes a1) (recvsOf recvs) prio drv e := by
  cases e with
  | ext t i m => exact drv_valid a1 h
  | tick => trivial

theorem to_code {c : Ctx} {a1 : ℚ} {M : Mach} (hM : Code a1 c M) {tab : Nat → List ℚ} {Fits : Ev → Prop} (hf : ∀ e, Fits e → Inlet e) {σ : Type}
    {on : σ → Ev → σ} {x0 : σ} {Sim : σ → St → Prop}
    (h : Simulates (mach a1 c) drv (start c (nodes a1) tab) Fits on x0 Sim) :
    Simulates M drv (start c (nodes a1) tab) Fits on x0 (fun x s => Sim x s ∧ GoodQ (nodes a1) s) :=
  h.code (checked a1) (classes a1) hM fun e he => driven a1 (hf e he)

/-- it compiles -/
theorem code_exists (a1 : ℚ) (c : Ctx) : ∃ M, Code a1 c M := exists_compiled c (checked a1) (f := 20) (by rw [shape_eq]; decide +kernel)

/-! one lemma per object, for rewriting -/

theorem n0_0 (a1 : ℚ) (c : Ctx) (m : Msg) : (sys a1 c).node (0, 0) m = .fwd false [((1, 0), m)] := rfl
theorem n0_1 (a1 : ℚ) (c : Ctx) (m : Msg) : (sys a1 c).node (0, 1) m = .fwd false [((3, 0), m)] := rfl
theorem n1 (a1 : ℚ) (c : Ctx) (i : Nat) (m : Msg) : (sys a1 c).node (1, i) m = .obj (beh c (.pack [0, 0]) 1 i m) := rfl
theorem o1_0 (a1 : ℚ) (c : Ctx) : (sys a1 c).out 1 0 = [(12, 0)] := rfl
theorem n3_0 (a1 : ℚ) (c : Ctx) (m : Msg) : (sys a1 c).node (3, 0) m = .fwd false [((4, 0), m)] := rfl
theorem n3_1 (a1 : ℚ) (c : Ctx) (m : Msg) : (sys a1 c).node (3, 1) m = .fwd false [((4, 1), m)] := rfl
theorem n4 (a1 : ℚ) (c : Ctx) (i : Nat) (m : Msg) : (sys a1 c).node (4, i) m = .obj (beh c (.var (.float a1)) 4 i m) := rfl
theorem o4_0 (a1 : ℚ) (c : Ctx) : (sys a1 c).out 4 0 = [(5, 0)] := rfl
theorem n5 (a1 : ℚ) (c : Ctx) (i : Nat) (m : Msg) : (sys a1 c).node (5, i) m = .fwd false [((13, 0), m)] := rfl
theorem n10 (a1 : ℚ) (c : Ctx) (i : Nat) (m : Msg) : (sys a1 c).node (10, i) m = .fwd false [((3, 0), m)] := rfl
theorem n12 (a1 : ℚ) (c : Ctx) (i : Nat) (m : Msg) : (sys a1 c).node (12, i) m = .fwd true [((18, 0), m)] := rfl
theorem n13 (a1 : ℚ) (c : Ctx) (i : Nat) (m : Msg) : (sys a1 c).node (13, i) m = .obj (beh c (.bink .sub 1) 13 i m) := rfl
theorem o13_0 (a1 : ℚ) (c : Ctx) : (sys a1 c).out 13 0 = [(14, 0)] := rfl
theorem n14 (a1 : ℚ) (c : Ctx) (i : Nat) (m : Msg) : (sys a1 c).node (14, i) m = .obj (beh c (.bink .max 0) 14 i m) := rfl
theorem o14_0 (a1 : ℚ) (c : Ctx) : (sys a1 c).out 14 0 = [(1, 1)] := rfl
theorem n15 (a1 : ℚ) (c : Ctx) (i : Nat) (m : Msg) : (sys a1 c).node (15, i) m = .obj (beh c (.none) 15 i m) := rfl
theorem o15_0 (a1 : ℚ) (c : Ctx) : (sys a1 c).out 15 0 = [(0, 0)] := rfl
theorem n16 (a1 : ℚ) (c : Ctx) (i : Nat) (m : Msg) : (sys a1 c).node (16, i) m = .obj (beh c (.none) 16 i m) := rfl
theorem o16_0 (a1 : ℚ) (c : Ctx) : (sys a1 c).out 16 0 = [(0, 1)] := rfl
theorem n18 (a1 : ℚ) (c : Ctx) (i : Nat) (m : Msg) : (sys a1 c).node (18, i) m = .obj (beh c (.probe 0) 18 i m) := rfl

attribute [lib_touchout] n0_0 n0_1 n1 o1_0 n3_0 n3_1 n4 o4_0 n5 n10 n12 n13 o13_0 n14 o14_0 n15 o15_0 n16 o16_0 n18

end Verif.Lib.Touchout
