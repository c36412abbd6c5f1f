import Verif.LibSim
/-!
The abstraction `[tabwrite]`: transcription of hvcc/interpreters/pd2hv/libs/pd/tabwrite.pd and of the library files it uses, made by
tools/pdlib.py.  Object `0` is the abstraction itself, its outlets are connected to `.probe`s.
-/
set_option linter.unusedVariables false
set_option linter.style.longLine false
set_option maxRecDepth 100000
namespace Verif.Lib.Tabwrite
open Verif.Control (Dest Kind Cast Patch)

/-- the objects of hvcc/interpreters/pd2hv/libs/pd/tabwrite.pd: kind, connections of each outlet, class -/
def nodes (a1 : String) : List Node :=
  [⟨.graph [1, 2], [[(12, 0)]], .none⟩,  -- 0: tabwrite
   ⟨.inlet, [[(5, 0)]], .none⟩,  -- 1: tabwrite, object 0: inlet -->
   ⟨.inlet, [[(4, 1)]], .none⟩,  -- 2: tabwrite, object 1: inlet -->
   ⟨.outlet 0 0, [], .none⟩,  -- 3: tabwrite, object 2: outlet -->
   ⟨.obj, [[(3, 0)]], .tabwrite 0⟩,  -- 4: tabwrite, object 3: pd @hv_obj __tabwrite \$1
   ⟨.graph [6, 7], [[(4, 2)], [(4, 0)]], .none⟩,  -- 5: tabwrite, object 4: route set
   ⟨.inlet, [[(8, 0)]], .none⟩,  -- 6: tabwrite, object 4: route set
   ⟨.inlet, [[]], .none⟩,  -- 7: tabwrite, object 4: route set
   ⟨.obj, [[(10, 0)], [(9, 0)]], .switch [(.sym "set")]⟩,  -- 8: tabwrite, object 4: route set
   ⟨.outlet 5 1, [], .none⟩,  -- 9: tabwrite, object 4: route set
   ⟨.obj, [[(11, 0)], [(11, 0)]], .slice 1 0⟩,  -- 10: tabwrite, object 4: route set
   ⟨.outlet 5 0, [], .none⟩,  -- 11: tabwrite, object 4: route set
   ⟨.obj, [], .probe 0⟩,  -- 12: outlet 0 of the abstraction
   ⟨.obj, [[(0, 0)]], .none⟩,  -- 13: an object of the surrounding patch, connected to inlet 0
   ⟨.obj, [[(0, 1)]], .none⟩]  -- 14: an object of the surrounding patch, connected to inlet 1

/-- receivers by name, in the order of the file: 0 = __hv_init -/
def recvs : List (List Nat) := [[]]

/-- priorities of receivers, PdReceiveObject.py:96-100 -/
def prio : Nat → Int
  | _ => 0

/-- the receivers in the order in which they fire -/
def order : List (List Nat) := [[]]

/-- the object connected to inlet `i` -/
def drv (i : Nat) : Nat := 13 + i

/-- the abstraction as it is (`Verif.Control`: C45, C35) -/
def mach (a1 : String) (c : Ctx) : Mach := source c (nodes a1) (recvsOf recvs) prio (recvsOf order)

/-- `M` is generated code -/
def Code (a1 : String) (c : Ctx) (M : Mach) : Prop := Compiled c (nodes a1) (recvsOf recvs) prio M

/-- what it means -/
def sys (a1 : String) (c : Ctx) : Control.Sys St Msg := (mach a1 c).sys

/-- kinds and connections -/
def shape : Shape :=
  [(.graph [1, 2], [[(12, 0)]]),
   (.inlet, [[(5, 0)]]),
   (.inlet, [[(4, 1)]]),
   (.outlet 0 0, []),
   (.obj, [[(3, 0)]]),
   (.graph [6, 7], [[(4, 2)], [(4, 0)]]),
   (.inlet, [[(8, 0)]]),
   (.inlet, [[]]),
   (.obj, [[(10, 0)], [(9, 0)]]),
   (.outlet 5 1, []),
   (.obj, [[(11, 0)], [(11, 0)]]),
   (.outlet 5 0, []),
   (.obj, []),
   (.obj, [[(0, 0)]]),
   (.obj, [[(0, 1)]])]

theorem shape_eq (a1 : String) : shapeOf (nodes a1) = shape := rfl

theorem checked (a1 : String) : check (shapeOf (nodes a1)) recvs order prio [0, 0, 0, 0, 0, 0, 0, 0, 0, 0, 0, 0, 0, 0, 0] = true := by
  rw [shape_eq]
  decide +kernel

theorem classes (a1 : String) : clsOK (nodes a1) = true := rfl

theorem drv_valid (a1 : String) {i : Nat} (h : i < 2) (m : Msg) : (Control.Src.outlet (drv i) 0 m).Valid (mkPatch (nodes a1) (recvsOf recvs) prio) (nodes a1).length := by
  have : i = 0 ∨ i = 1 := by omega
  rcases this with rfl | rfl <;> exact ⟨Nat.le_of_ble_eq_true rfl, rfl, Nat.le_of_ble_eq_true rfl⟩

/-- messages for the inlets there are -/
def Inlet : Ev → Prop
  | .ext _ i _ => i < 2
  | .tick => True

theorem driven (a1 : String) {e : Ev} (h : Inlet e) : Driven (nodes a1) (recvsOf recvs) prio drv e := by
  cases e with
  | ext t i m => exact drv_valid a1 h
  | tick => trivial

theorem to_code {c : Ctx} {a1 : String} {M : Mach} (hM : Code a1 c M) {tab : Nat → List ℚ} {Fits : Ev → Prop} (hf : ∀ e, Fits e → Inlet e) {σ : Type}
    {on : σ → Ev → σ} {x0 : σ} {Sim : σ → St → Prop}
    (h : Simulates (mach a1 c) drv (start c (nodes a1) tab) Fits on x0 Sim) :
    Simulates M drv (start c (nodes a1) tab) Fits on x0 (fun x s => Sim x s ∧ GoodQ (nodes a1) s) :=
  h.code (checked a1) (classes a1) hM fun e he => driven a1 (hf e he)

/-- it compiles -/
theorem code_exists (a1 : String) (c : Ctx) : ∃ M, Code a1 c M := exists_compiled c (checked a1) (f := 20) (by rw [shape_eq]; decide +kernel)

-- tables: 0 = ('p', 'a1') (?)

/-! one lemma per object, for rewriting -/

theorem n0_0 (a1 : String) (c : Ctx) (m : Msg) : (sys a1 c).node (0, 0) m = .fwd false [((5, 0), m)] := rfl
theorem n0_1 (a1 : String) (c : Ctx) (m : Msg) : (sys a1 c).node (0, 1) m = .fwd false [((4, 1), m)] := rfl
theorem n3 (a1 : String) (c : Ctx) (i : Nat) (m : Msg) : (sys a1 c).node (3, i) m = .fwd false [((12, 0), m)] := rfl
theorem n4 (a1 : String) (c : Ctx) (i : Nat) (m : Msg) : (sys a1 c).node (4, i) m = .obj (beh c (.tabwrite 0) 4 i m) := rfl
theorem o4_0 (a1 : String) (c : Ctx) : (sys a1 c).out 4 0 = [(3, 0)] := rfl
theorem n5_0 (a1 : String) (c : Ctx) (m : Msg) : (sys a1 c).node (5, 0) m = .fwd false [((8, 0), m)] := rfl
theorem n5_1 (a1 : String) (c : Ctx) (m : Msg) : (sys a1 c).node (5, 1) m = .fwd false [] := rfl
theorem n8 (a1 : String) (c : Ctx) (i : Nat) (m : Msg) : (sys a1 c).node (8, i) m = .obj (beh c (.switch [(.sym "set")]) 8 i m) := rfl
theorem o8_0 (a1 : String) (c : Ctx) : (sys a1 c).out 8 0 = [(10, 0)] := rfl
theorem o8_1 (a1 : String) (c : Ctx) : (sys a1 c).out 8 1 = [(9, 0)] := rfl
theorem n9 (a1 : String) (c : Ctx) (i : Nat) (m : Msg) : (sys a1 c).node (9, i) m = .fwd false [((4, 0), m)] := rfl
theorem n10 (a1 : String) (c : Ctx) (i : Nat) (m : Msg) : (sys a1 c).node (10, i) m = .obj (beh c (.slice 1 0) 10 i m) := rfl
theorem o10_0 (a1 : String) (c : Ctx) : (sys a1 c).out 10 0 = [(11, 0)] := rfl
theorem o10_1 (a1 : String) (c : Ctx) : (sys a1 c).out 10 1 = [(11, 0)] := rfl
theorem n11 (a1 : String) (c : Ctx) (i : Nat) (m : Msg) : (sys a1 c).node (11, i) m = .fwd false [((4, 2), m)] := rfl
theorem n12 (a1 : String) (c : Ctx) (i : Nat) (m : Msg) : (sys a1 c).node (12, i) m = .obj (beh c (.probe 0) 12 i m) := rfl
theorem n13 (a1 : String) (c : Ctx) (i : Nat) (m : Msg) : (sys a1 c).node (13, i) m = .obj (beh c (.none) 13 i m) := rfl
theorem o13_0 (a1 : String) (c : Ctx) : (sys a1 c).out 13 0 = [(0, 0)] := rfl
theorem n14 (a1 : String) (c : Ctx) (i : Nat) (m : Msg) : (sys a1 c).node (14, i) m = .obj (beh c (.none) 14 i m) := rfl
theorem o14_0 (a1 : String) (c : Ctx) : (sys a1 c).out 14 0 = [(0, 1)] := rfl

attribute [lib_tabwrites] n0_0 n0_1 n3 n4 o4_0 n5_0 n5_1 n8 o8_0 o8_1 n9 n10 o10_0 o10_1 n11 n12 n13 o13_0 n14 o14_0

end Verif.Lib.Tabwrite
