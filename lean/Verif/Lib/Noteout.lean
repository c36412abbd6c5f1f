import Verif.LibSim
/-!
The abstraction `[noteout]`: transcription of hvcc/interpreters/pd2hv/libs/pd/noteout.pd and of the library files it uses, made by
tools/pdlib.py.  Object `0` is the abstraction itself, its outlets are connected to `.probe`s.
-/
set_option linter.unusedVariables false
set_option linter.style.longLine false
set_option maxRecDepth 100000
namespace Verif.Lib.Noteout
open Verif.Control (Dest Kind Cast Patch)

/-- the objects of hvcc/interpreters/pd2hv/libs/pd/noteout.pd: kind, connections of each outlet, class -/
def nodes (a1 : ℚ) : List Node :=
  [⟨.graph [3, 4, 13], [], .none⟩,  -- 0: noteout
   ⟨.obj, [[(2, 0)]], .pack [0, 0, 0]⟩,  -- 1: noteout, object 0: pack f f f
   ⟨.send 1, [[]], .none⟩,  -- 2: noteout, object 1: s __hv_noteout @hv_param
   ⟨.inlet, [[(1, 0)]], .none⟩,  -- 3: noteout, object 2: inlet note
   ⟨.inlet, [[(1, 1)]], .none⟩,  -- 4: noteout, object 3: inlet vel
   ⟨.graph [], [[(8, 0)]], .none⟩,  -- 5: noteout, object 4: loadbang
   ⟨.recv, [[(7, 0)]], .none⟩,  -- 6: loadbang, object 0: r __hv_init \$1
   ⟨.outlet 5 0, [], .none⟩,  -- 7: loadbang, object 1: outlet
   ⟨.graph [11, 12], [[(14, 0)]], .none⟩,  -- 8: noteout, object 5: f \$1
   ⟨.obj, [[(10, 0)]], .var (.float a1)⟩,  -- 9: f, object 1: pd @hv_obj __var \$1
   ⟨.outlet 8 0, [], .none⟩,  -- 10: f, object 2: outlet
   ⟨.inlet, [[(9, 0)]], .none⟩,  -- 11: f, object 3: inlet -->
   ⟨.inlet, [[(9, 1)]], .none⟩,  -- 12: f, object 4: inlet -->
   ⟨.inlet, [[(8, 0)]], .none⟩,  -- 13: noteout, object 6: inlet channel
   ⟨.obj, [[(15, 0)]], .bink .sub 1⟩,  -- 14: noteout, object 7: - 1
   ⟨.obj, [[(1, 2)]], .bink .max 0⟩,  -- 15: noteout, object 8: max
   ⟨.obj, [[(0, 0)]], .none⟩,  -- 16: an object of the surrounding patch, connected to inlet 0
   ⟨.obj, [[(0, 1)]], .none⟩,  -- 17: an object of the surrounding patch, connected to inlet 1
   ⟨.obj, [[(0, 2)]], .none⟩,  -- 18: an object of the surrounding patch, connected to inlet 2
   ⟨.recv, [[(20, 0)]], .none⟩,  -- 19: from __hv_noteout
   ⟨.obj, [], .probe 0⟩]  -- 20: what comes out of __hv_noteout: number 0

/-- receivers by name, in the order of the file: 0 = __hv_init, 1 = __hv_noteout -/
def recvs : List (List Nat) := [[6], [19]]

/-- priorities of receivers, PdReceiveObject.py:96-100 -/
def prio : Nat → Int
  | 6 => 999
  | 19 => -2
  | _ => 0

/-- the receivers in the order in which they fire -/
def order : List (List Nat) := [[6], [19]]

/-- the object connected to inlet `i` -/
def drv (i : Nat) : Nat := 16 + i

/-- the abstraction as it is (`Verif.Control`: C45, C35) -/
def mach (a1 : ℚ) (c : Ctx) : Mach := source c (nodes a1) (recvsOf recvs) prio (recvsOf order)

/-- `M` is generated code -/
def Code (a1 : ℚ) (c : Ctx) (M : Mach) : Prop := Compiled c (nodes a1) (recvsOf recvs) prio M

/-- what it means -/
def sys (a1 : ℚ) (c : Ctx) : Control.Sys St Msg := (mach a1 c).sys

/-- kinds and connections -/
def shape : Shape :=
  [(.graph [3, 4, 13], []),
   (.obj, [[(2, 0)]]),
   (.send 1, [[]]),
   (.inlet, [[(1, 0)]]),
   (.inlet, [[(1, 1)]]),
   (.graph [], [[(8, 0)]]),
   (.recv, [[(7, 0)]]),
   (.outlet 5 0, []),
   (.graph [11, 12], [[(14, 0)]]),
   (.obj, [[(10, 0)]]),
   (.outlet 8 0, []),
   (.inlet, [[(9, 0)]]),
   (.inlet, [[(9, 1)]]),
   (.inlet, [[(8, 0)]]),
   (.obj, [[(15, 0)]]),
   (.obj, [[(1, 2)]]),
   (.obj, [[(0, 0)]]),
   (.obj, [[(0, 1)]]),
   (.obj, [[(0, 2)]]),
   (.recv, [[(20, 0)]]),
   (.obj, [])]

theorem shape_eq (a1 : ℚ) : shapeOf (nodes a1) = shape := rfl

theorem checked (a1 : ℚ) : check (shapeOf (nodes a1)) recvs order prio [0, 0, 0, 0, 0, 0, 0, 0, 0, 0, 0, 0, 0, 0, 0, 0, 0, 0, 0, 0, 0] = true := by
  rw [shape_eq]
  decide +kernel

theorem classes (a1 : ℚ) : clsOK (nodes a1) = true := rfl

theorem drv_valid (a1 : ℚ) {i : Nat} (h : i < 3) (m : Msg) : (Control.Src.outlet (drv i) 0 m).Valid (mkPatch (nodes a1) (recvsOf recvs) prio) (nodes a1).length := by
  have : i = 0 ∨ i = 1 ∨ i = 2 := by omega
  rcases this with rfl | rfl | rfl <;> exact ⟨Nat.le_of_ble_eq_true rfl, rfl, Nat.le_of_ble_eq_true rfl⟩

/-- messages for the inlets there are -/
def Inlet : Ev → Prop
  | .ext _ i _ => i < 3
  | .tick => True

theorem driven (a1 : ℚ) {e : Ev} (h : Inlet e) : Driven (nodes a1) (recvsOf recvs) prio drv e := by
  cases e with
  | ext t i m => exact drv_valid a1 h
  | tick => trivial

theorem to_code {c : Ctx} {a1 : ℚ} {M : Mach} (hM : Code a1 c M) {tab : Nat → List ℚ} {Fits : Ev → Prop} (hf : ∀ e, Fits e → Inlet e) {σ : Type}
    {on : σ → Ev → σ} {x0 : σ} {Sim : σ → St → Prop}
    (h : Simulates (mach a1 c) drv (start c (nodes a1) tab) Fits on x0 Sim) :
    Simulates M drv (start c (nodes a1) tab) Fits on x0 (fun x s => Sim x s ∧ GoodQ (nodes a1) s) :=
  h.code (checked a1) (classes a1) hM fun e he => driven a1 (hf e he)

/-- it compiles -/
theorem code_exists (a1 : ℚ) (c : Ctx) : ∃ M, Code a1 c M := exists_compiled c (checked a1) (f := 20) (by rw [shape_eq]; decide +kernel)

/-! one lemma per object, for rewriting -/

theorem n0_0 (a1 : ℚ) (c : Ctx) (m : Msg) : (sys a1 c).node (0, 0) m = .fwd false [((1, 0), m)] := rfl
theorem n0_1 (a1 : ℚ) (c : Ctx) (m : Msg) : (sys a1 c).node (0, 1) m = .fwd false [((1, 1), m)] := rfl
theorem n0_2 (a1 : ℚ) (c : Ctx) (m : Msg) : (sys a1 c).node (0, 2) m = .fwd false [((8, 0), m)] := rfl
theorem n1 (a1 : ℚ) (c : Ctx) (i : Nat) (m : Msg) : (sys a1 c).node (1, i) m = .obj (beh c (.pack [0, 0, 0]) 1 i m) := rfl
theorem o1_0 (a1 : ℚ) (c : Ctx) : (sys a1 c).out 1 0 = [(2, 0)] := rfl
theorem n2 (a1 : ℚ) (c : Ctx) (i : Nat) (m : Msg) : (sys a1 c).node (2, i) m = .fwd true [((20, 0), m)] := rfl
theorem n7 (a1 : ℚ) (c : Ctx) (i : Nat) (m : Msg) : (sys a1 c).node (7, i) m = .fwd false [((8, 0), m)] := rfl
theorem n8_0 (a1 : ℚ) (c : Ctx) (m : Msg) : (sys a1 c).node (8, 0) m = .fwd false [((9, 0), m)] := rfl
theorem n8_1 (a1 : ℚ) (c : Ctx) (m : Msg) : (sys a1 c).node (8, 1) m = .fwd false [((9, 1), m)] := rfl
theorem n9 (a1 : ℚ) (c : Ctx) (i : Nat) (m : Msg) : (sys a1 c).node (9, i) m = .obj (beh c (.var (.float a1)) 9 i m) := rfl
theorem o9_0 (a1 : ℚ) (c : Ctx) : (sys a1 c).out 9 0 = [(10, 0)] := rfl
theorem n10 (a1 : ℚ) (c : Ctx) (i : Nat) (m : Msg) : (sys a1 c).node (10, i) m = .fwd false [((14, 0), m)] := rfl
theorem n14 (a1 : ℚ) (c : Ctx) (i : Nat) (m : Msg) : (sys a1 c).node (14, i) m = .obj (beh c (.bink .sub 1) 14 i m) := rfl
theorem o14_0 (a1 : ℚ) (c : Ctx) : (sys a1 c).out 14 0 = [(15, 0)] := rfl
theorem n15 (a1 : ℚ) (c : Ctx) (i : Nat) (m : Msg) : (sys a1 c).node (15, i) m = .obj (beh c (.bink .max 0) 15 i m) := rfl
theorem o15_0 (a1 : ℚ) (c : Ctx) : (sys a1 c).out 15 0 = [(1, 2)] := rfl
theorem n16 (a1 : ℚ) (c : Ctx) (i : Nat) (m : Msg) : (sys a1 c).node (16, i) m = .obj (beh c (.none) 16 i m) := rfl
theorem o16_0 (a1 : ℚ) (c : Ctx) : (sys a1 c).out 16 0 = [(0, 0)] := rfl
theorem n17 (a1 : ℚ) (c : Ctx) (i : Nat) (m : Msg) : (sys a1 c).node (17, i) m = .obj (beh c (.none) 17 i m) := rfl
theorem o17_0 (a1 : ℚ) (c : Ctx) : (sys a1 c).out 17 0 = [(0, 1)] := rfl
theorem n18 (a1 : ℚ) (c : Ctx) (i : Nat) (m : Msg) : (sys a1 c).node (18, i) m = .obj (beh c (.none) 18 i m) := rfl
theorem o18_0 (a1 : ℚ) (c : Ctx) : (sys a1 c).out 18 0 = [(0, 2)] := rfl
theorem n20 (a1 : ℚ) (c : Ctx) (i : Nat) (m : Msg) : (sys a1 c).node (20, i) m = .obj (beh c (.probe 0) 20 i m) := rfl

attribute [lib_noteout] n0_0 n0_1 n0_2 n1 o1_0 n2 n7 n8_0 n8_1 n9 o9_0 n10 n14 o14_0 n15 o15_0 n16 o16_0 n17 o17_0 n18 o18_0 n20

end Verif.Lib.Noteout
