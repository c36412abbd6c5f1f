import Verif.LibSim
/-!
The abstraction `[clip]`: transcription of hvcc/interpreters/pd2hv/libs/pd/clip.pd and of the library files it uses, made by
tools/pdlib.py.  Object `0` is the abstraction itself, its outlets are connected to `.probe`s.
-/
set_option linter.unusedVariables false
set_option linter.style.longLine false
set_option maxRecDepth 100000
namespace Verif.Lib.Clip
open Verif.Control (Dest Kind Cast Patch)

/-- the objects of hvcc/interpreters/pd2hv/libs/pd/clip.pd: kind, connections of each outlet, class -/
def nodes (a1 : ℚ) (a2 : ℚ) : List Node :=
  [⟨.graph [6, 1, 2], [[(7, 0)]], .none⟩,  -- 0: clip
   ⟨.inlet, [[(4, 1)]], .none⟩,  -- 1: clip, object 0: inlet
   ⟨.inlet, [[(3, 1)]], .none⟩,  -- 2: clip, object 1: inlet
   ⟨.obj, [[(4, 0)]], .bin .min a2⟩,  -- 3: clip, object 4: min \$2
   ⟨.obj, [[(5, 0)]], .bin .max a1⟩,  -- 4: clip, object 5: max \$1
   ⟨.outlet 0 0, [], .none⟩,  -- 5: clip, object 6: outlet
   ⟨.inlet, [[(3, 0)]], .none⟩,  -- 6: clip, object 7: inlet
   ⟨.obj, [], .probe 0⟩,  -- 7: outlet 0 of the abstraction
   ⟨.obj, [[(0, 0)]], .none⟩,  -- 8: an object of the surrounding patch, connected to inlet 0
   ⟨.obj, [[(0, 1)]], .none⟩,  -- 9: an object of the surrounding patch, connected to inlet 1
   ⟨.obj, [[(0, 2)]], .none⟩]  -- 10: an object of the surrounding patch, connected to inlet 2

/-- receivers by name, in the order of the file: 0 = __hv_init -/
def recvs : List (List Nat) := [[]]

/-- priorities of receivers, PdReceiveObject.py:96-100 -/
def prio : Nat → Int
  | _ => 0

/-- the receivers in the order in which they fire -/
def order : List (List Nat) := [[]]

/-- the object connected to inlet `i` -/
def drv (i : Nat) : Nat := 8 + i

/-- the abstraction as it is (`Verif.Control`: C45, C35) -/
def mach (a1 : ℚ) (a2 : ℚ) (c : Ctx) : Mach := source c (nodes a1 a2) (recvsOf recvs) prio (recvsOf order)

/-- `M` is generated code -/
def Code (a1 : ℚ) (a2 : ℚ) (c : Ctx) (M : Mach) : Prop := Compiled c (nodes a1 a2) (recvsOf recvs) prio M

/-- what it means -/
def sys (a1 : ℚ) (a2 : ℚ) (c : Ctx) : Control.Sys St Msg := (mach a1 a2 c).sys

/-- kinds and connections -/
def shape : Shape :=
  [(.graph [6, 1, 2], [[(7, 0)]]),
   (.inlet, [[(4, 1)]]),
   (.inlet, [[(3, 1)]]),
   (.obj, [[(4, 0)]]),
   (.obj, [[(5, 0)]]),
   (.outlet 0 0, []),
   (.inlet, [[(3, 0)]]),
   (.obj, []),
   (.obj, [[(0, 0)]]),
   (.obj, [[(0, 1)]]),
   (.obj, [[(0, 2)]])]

theorem shape_eq (a1 : ℚ) (a2 : ℚ) : shapeOf (nodes a1 a2) = shape := rfl

theorem checked (a1 : ℚ) (a2 : ℚ) : check (shapeOf (nodes a1 a2)) recvs order prio [0, 0, 0, 0, 0, 0, 0, 0, 0, 0, 0] = true := by
  rw [shape_eq]
  decide +kernel

theorem classes (a1 : ℚ) (a2 : ℚ) : clsOK (nodes a1 a2) = true := rfl

theorem drv_valid (a1 : ℚ) (a2 : ℚ) {i : Nat} (h : i < 3) (m : Msg) : (Control.Src.outlet (drv i) 0 m).Valid (mkPatch (nodes a1 a2) (recvsOf recvs) prio) (nodes a1 a2).length := by
  have : i = 0 ∨ i = 1 ∨ i = 2 := by omega
  rcases this with rfl | rfl | rfl <;> exact ⟨Nat.le_of_ble_eq_true rfl, rfl, Nat.le_of_ble_eq_true rfl⟩

/-- messages for the inlets there are -/
def Inlet : Ev → Prop
  | .ext _ i _ => i < 3
  | .tick => True

theorem driven (a1 : ℚ) (a2 : ℚ) {e : Ev} (h : Inlet e) : Driven (nodes a1 a2) (recvsOf recvs) prio drv e := by
  cases e with
  | ext t i m => exact drv_valid a1 a2 h
  | tick => trivial

theorem to_code {c : Ctx} {a1 : ℚ} {a2 : ℚ} {M : Mach} (hM : Code a1 a2 c M) {tab : Nat → List ℚ} {Fits : Ev → Prop} (hf : ∀ e, Fits e → Inlet e) {σ : Type}
    {on : σ → Ev → σ} {x0 : σ} {Sim : σ → St → Prop}
    (h : Simulates (mach a1 a2 c) drv (start c (nodes a1 a2) tab) Fits on x0 Sim) :
    Simulates M drv (start c (nodes a1 a2) tab) Fits on x0 (fun x s => Sim x s ∧ GoodQ (nodes a1 a2) s) :=
  h.code (checked a1 a2) (classes a1 a2) hM fun e he => driven a1 a2 (hf e he)

/-- it compiles -/
theorem code_exists (a1 : ℚ) (a2 : ℚ) (c : Ctx) : ∃ M, Code a1 a2 c M := exists_compiled c (checked a1 a2) (f := 20) (by rw [shape_eq]; decide +kernel)

/-! one lemma per object, for rewriting -/

theorem n0_0 (a1 : ℚ) (a2 : ℚ) (c : Ctx) (m : Msg) : (sys a1 a2 c).node (0, 0) m = .fwd false [((3, 0), m)] := rfl
theorem n0_1 (a1 : ℚ) (a2 : ℚ) (c : Ctx) (m : Msg) : (sys a1 a2 c).node (0, 1) m = .fwd false [((4, 1), m)] := rfl
theorem n0_2 (a1 : ℚ) (a2 : ℚ) (c : Ctx) (m : Msg) : (sys a1 a2 c).node (0, 2) m = .fwd false [((3, 1), m)] := rfl
theorem n3 (a1 : ℚ) (a2 : ℚ) (c : Ctx) (i : Nat) (m : Msg) : (sys a1 a2 c).node (3, i) m = .obj (beh c (.bin .min a2) 3 i m) := rfl
theorem o3_0 (a1 : ℚ) (a2 : ℚ) (c : Ctx) : (sys a1 a2 c).out 3 0 = [(4, 0)] := rfl
theorem n4 (a1 : ℚ) (a2 : ℚ) (c : Ctx) (i : Nat) (m : Msg) : (sys a1 a2 c).node (4, i) m = .obj (beh c (.bin .max a1) 4 i m) := rfl
theorem o4_0 (a1 : ℚ) (a2 : ℚ) (c : Ctx) : (sys a1 a2 c).out 4 0 = [(5, 0)] := rfl
theorem n5 (a1 : ℚ) (a2 : ℚ) (c : Ctx) (i : Nat) (m : Msg) : (sys a1 a2 c).node (5, i) m = .fwd false [((7, 0), m)] := rfl
theorem n7 (a1 : ℚ) (a2 : ℚ) (c : Ctx) (i : Nat) (m : Msg) : (sys a1 a2 c).node (7, i) m = .obj (beh c (.probe 0) 7 i m) := rfl
theorem n8 (a1 : ℚ) (a2 : ℚ) (c : Ctx) (i : Nat) (m : Msg) : (sys a1 a2 c).node (8, i) m = .obj (beh c (.none) 8 i m) := rfl
theorem o8_0 (a1 : ℚ) (a2 : ℚ) (c : Ctx) : (sys a1 a2 c).out 8 0 = [(0, 0)] := rfl
theorem n9 (a1 : ℚ) (a2 : ℚ) (c : Ctx) (i : Nat) (m : Msg) : (sys a1 a2 c).node (9, i) m = .obj (beh c (.none) 9 i m) := rfl
theorem o9_0 (a1 : ℚ) (a2 : ℚ) (c : Ctx) : (sys a1 a2 c).out 9 0 = [(0, 1)] := rfl
theorem n10 (a1 : ℚ) (a2 : ℚ) (c : Ctx) (i : Nat) (m : Msg) : (sys a1 a2 c).node (10, i) m = .obj (beh c (.none) 10 i m) := rfl
theorem o10_0 (a1 : ℚ) (a2 : ℚ) (c : Ctx) : (sys a1 a2 c).out 10 0 = [(0, 2)] := rfl

attribute [lib_clip] n0_0 n0_1 n0_2 n3 o3_0 n4 o4_0 n5 n7 n8 o8_0 n9 o9_0 n10 o10_0

end Verif.Lib.Clip
