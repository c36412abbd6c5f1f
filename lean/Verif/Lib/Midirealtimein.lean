import Verif.LibSim
/-!
The abstraction `[midirealtimein]`: transcription of hvcc/interpreters/pd2hv/libs/pd/midirealtimein.pd and of the library files it uses, made by
tools/pdlib.py.  Object `0` is the abstraction itself, its outlets are connected to `.probe`s.
-/
set_option linter.unusedVariables false
set_option linter.style.longLine false
set_option maxRecDepth 100000
namespace Verif.Lib.Midirealtimein
open Verif.Control (Dest Kind Cast Patch)

/-- the objects of hvcc/interpreters/pd2hv/libs/pd/midirealtimein.pd: kind, connections of each outlet, class -/
def nodes : List Node :=
  [⟨.graph [], [[(10, 0)], [(11, 0)]], .none⟩,  -- 0: midirealtimein
   ⟨.outlet 0 1, [], .none⟩,  -- 1: midirealtimein, object 0: outlet
   ⟨.outlet 0 0, [], .none⟩,  -- 2: midirealtimein, object 1: outlet
   ⟨.graph [4], [[(2, 0)], [(1, 0)]], .none⟩,  -- 3: midirealtimein, object 3: unpack f f
   ⟨.inlet, [[(5, 0), (7, 0)]], .none⟩,  -- 4: midirealtimein, object 3: unpack f f
   ⟨.obj, [[(6, 0)], []], .slice 1 1⟩,  -- 5: midirealtimein, object 3: unpack f f
   ⟨.outlet 3 1, [], .none⟩,  -- 6: midirealtimein, object 3: unpack f f
   ⟨.obj, [[(8, 0)], []], .slice 0 1⟩,  -- 7: midirealtimein, object 3: unpack f f
   ⟨.outlet 3 0, [], .none⟩,  -- 8: midirealtimein, object 3: unpack f f
   ⟨.recv, [[(3, 0)]], .none⟩,  -- 9: midirealtimein, object 4: r __hv_midirealtimein
   ⟨.obj, [], .probe 0⟩,  -- 10: outlet 0 of the abstraction
   ⟨.obj, [], .probe 1⟩,  -- 11: outlet 1 of the abstraction
   ⟨.obj, [[(13, 0)]], .none⟩,  -- 12: what sends messages to __hv_midirealtimein: number 0
   ⟨.send 1, [[]], .none⟩]  -- 13: to __hv_midirealtimein

/-- receivers by name, in the order of the file: 0 = __hv_init, 1 = __hv_midirealtimein -/
def recvs : List (List Nat) := [[], [9]]

/-- priorities of receivers, PdReceiveObject.py:96-100 -/
def prio : Nat → Int
  | 9 => -1
  | _ => 0

/-- the receivers in the order in which they fire -/
def order : List (List Nat) := [[], [9]]

/-- the object connected to inlet `i` -/
def drv (i : Nat) : Nat := 12 + i

/-- the abstraction as it is (`Verif.Control`: C45, C35) -/
def mach (c : Ctx) : Mach := source c (nodes) (recvsOf recvs) prio (recvsOf order)

/-- `M` is generated code -/
def Code (c : Ctx) (M : Mach) : Prop := Compiled c (nodes) (recvsOf recvs) prio M

/-- what it means -/
def sys (c : Ctx) : Control.Sys St Msg := (mach c).sys

/-- kinds and connections -/
def shape : Shape :=
  [(.graph [], [[(10, 0)], [(11, 0)]]),
   (.outlet 0 1, []),
   (.outlet 0 0, []),
   (.graph [4], [[(2, 0)], [(1, 0)]]),
   (.inlet, [[(5, 0), (7, 0)]]),
   (.obj, [[(6, 0)], []]),
   (.outlet 3 1, []),
   (.obj, [[(8, 0)], []]),
   (.outlet 3 0, []),
   (.recv, [[(3, 0)]]),
   (.obj, []),
   (.obj, []),
   (.obj, [[(13, 0)]]),
   (.send 1, [[]])]

theorem shape_eq : shapeOf (nodes) = shape := rfl

theorem checked : check (shapeOf (nodes)) recvs order prio [0, 0, 0, 0, 0, 0, 0, 0, 0, 0, 0, 0, 0, 0] = true := by
  rw [shape_eq]
  decide +kernel

theorem classes : clsOK (nodes) = true := rfl

theorem drv_valid {i : Nat} (h : i < 1) (m : Msg) : (Control.Src.outlet (drv i) 0 m).Valid (mkPatch (nodes) (recvsOf recvs) prio) (nodes).length := by
  have : i = 0 := by omega
  rcases this with rfl <;> exact ⟨Nat.le_of_ble_eq_true rfl, rfl, Nat.le_of_ble_eq_true rfl⟩

/-- messages for the inlets there are -/
def Inlet : Ev → Prop
  | .ext _ i _ => i < 1
  | .tick => True

theorem driven {e : Ev} (h : Inlet e) : Driven (nodes) (recvsOf recvs) prio drv e := by
  cases e with
  | ext t i m => exact drv_valid h
  | tick => trivial

theorem to_code {c : Ctx} {M : Mach} (hM : Code c M) {tab : Nat → List ℚ} {Fits : Ev → Prop} (hf : ∀ e, Fits e → Inlet e) {σ : Type}
    {on : σ → Ev → σ} {x0 : σ} {Sim : σ → St → Prop}
    (h : Simulates (mach c) drv (start c (nodes) tab) Fits on x0 Sim) :
    Simulates M drv (start c (nodes) tab) Fits on x0 (fun x s => Sim x s ∧ GoodQ (nodes) s) :=
  h.code (checked) (classes) hM fun e he => driven (hf e he)

/-- it compiles -/
theorem code_exists (c : Ctx) : ∃ M, Code c M := exists_compiled c (checked) (f := 20) (by rw [shape_eq]; decide +kernel)

/-! one lemma per object, for rewriting -/

theorem n1 (c : Ctx) (i : Nat) (m : Msg) : (sys c).node (1, i) m = .fwd false [((11, 0), m)] := rfl
theorem n2 (c : Ctx) (i : Nat) (m : Msg) : (sys c).node (2, i) m = .fwd false [((10, 0), m)] := rfl
theorem n3_0 (c : Ctx) (m : Msg) : (sys c).node (3, 0) m = .fwd false [((5, 0), m), ((7, 0), m)] := rfl
theorem n5 (c : Ctx) (i : Nat) (m : Msg) : (sys c).node (5, i) m = .obj (beh c (.slice 1 1) 5 i m) := rfl
theorem o5_0 (c : Ctx) : (sys c).out 5 0 = [(6, 0)] := rfl
theorem o5_1 (c : Ctx) : (sys c).out 5 1 = [] := rfl
theorem n6 (c : Ctx) (i : Nat) (m : Msg) : (sys c).node (6, i) m = .fwd false [((1, 0), m)] := rfl
theorem n7 (c : Ctx) (i : Nat) (m : Msg) : (sys c).node (7, i) m = .obj (beh c (.slice 0 1) 7 i m) := rfl
theorem o7_0 (c : Ctx) : (sys c).out 7 0 = [(8, 0)] := rfl
theorem o7_1 (c : Ctx) : (sys c).out 7 1 = [] := rfl
theorem n8 (c : Ctx) (i : Nat) (m : Msg) : (sys c).node (8, i) m = .fwd false [((2, 0), m)] := rfl
theorem n10 (c : Ctx) (i : Nat) (m : Msg) : (sys c).node (10, i) m = .obj (beh c (.probe 0) 10 i m) := rfl
theorem n11 (c : Ctx) (i : Nat) (m : Msg) : (sys c).node (11, i) m = .obj (beh c (.probe 1) 11 i m) := rfl
theorem n12 (c : Ctx) (i : Nat) (m : Msg) : (sys c).node (12, i) m = .obj (beh c (.none) 12 i m) := rfl
theorem o12_0 (c : Ctx) : (sys c).out 12 0 = [(13, 0)] := rfl
theorem n13 (c : Ctx) (i : Nat) (m : Msg) : (sys c).node (13, i) m = .fwd true [((3, 0), m)] := rfl

attribute [lib_midirealtimein] n1 n2 n3_0 n5 o5_0 o5_1 n6 n7 o7_0 o7_1 n8 n10 n11 n12 o12_0 n13

end Verif.Lib.Midirealtimein
