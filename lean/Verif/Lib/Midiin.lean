import Verif.LibSim
/-!
The abstraction `[midiin]`: transcription of hvcc/interpreters/pd2hv/libs/pd/midiin.pd and of the library files it uses, made by
tools/pdlib.py.  Object `0` is the abstraction itself, its outlets are connected to `.probe`s.
-/
set_option linter.unusedVariables false
set_option linter.style.longLine false
set_option maxRecDepth 100000
namespace Verif.Lib.Midiin
open Verif.Control (Dest Kind Cast Patch)

/-- the objects of hvcc/interpreters/pd2hv/libs/pd/midiin.pd: kind, connections of each outlet, class -/
def nodes : List Node :=
  [⟨.graph [], [[(11, 0)], [(12, 0)]], .none⟩,  -- 0: midiin
   ⟨.outlet 0 1, [], .none⟩,  -- 1: midiin, object 0: outlet
   ⟨.outlet 0 0, [], .none⟩,  -- 2: midiin, object 1: outlet
   ⟨.recv, [[(4, 0)]], .none⟩,  -- 3: midiin, object 2: r __hv_midiin
   ⟨.graph [5], [[(2, 0)], [(10, 0)]], .none⟩,  -- 4: midiin, object 4: unpack f f
   ⟨.inlet, [[(6, 0), (8, 0)]], .none⟩,  -- 5: midiin, object 4: unpack f f
   ⟨.obj, [[(7, 0)], []], .slice 1 1⟩,  -- 6: midiin, object 4: unpack f f
   ⟨.outlet 4 1, [], .none⟩,  -- 7: midiin, object 4: unpack f f
   ⟨.obj, [[(9, 0)], []], .slice 0 1⟩,  -- 8: midiin, object 4: unpack f f
   ⟨.outlet 4 0, [], .none⟩,  -- 9: midiin, object 4: unpack f f
   ⟨.obj, [[(1, 0)]], .bink .add 1⟩,  -- 10: midiin, object 5: + 1
   ⟨.obj, [], .probe 0⟩,  -- 11: outlet 0 of the abstraction
   ⟨.obj, [], .probe 1⟩,  -- 12: outlet 1 of the abstraction
   ⟨.obj, [[(14, 0)]], .none⟩,  -- 13: what sends messages to __hv_midiin: number 0
   ⟨.send 1, [[]], .none⟩]  -- 14: to __hv_midiin

/-- receivers by name, in the order of the file: 0 = __hv_init, 1 = __hv_midiin -/
def recvs : List (List Nat) := [[], [3]]

/-- priorities of receivers, PdReceiveObject.py:96-100 -/
def prio : Nat → Int
  | 3 => -1
  | _ => 0

/-- the receivers in the order in which they fire -/
def order : List (List Nat) := [[], [3]]

/-- the object connected to inlet `i` -/
def drv (i : Nat) : Nat := 13 + i

/-- the abstraction as it is (`Verif.Control`: C45, C35) -/
def mach (c : Ctx) : Mach := source c (nodes) (recvsOf recvs) prio (recvsOf order)

/-- `M` is generated code -/
def Code (c : Ctx) (M : Mach) : Prop := Compiled c (nodes) (recvsOf recvs) prio M

/-- what it means -/
def sys (c : Ctx) : Control.Sys St Msg := (mach c).sys

/-- kinds and connections -/
def shape : Shape :=
  [(.graph [], [[(11, 0)], [(12, 0)]]),
   (.outlet 0 1, []),
   (.outlet 0 0, []),
   (.recv, [[(4, 0)]]),
   (.graph [5], [[(2, 0)], [(10, 0)]]),
   (.inlet, [[(6, 0), (8, 0)]]),
   (.obj, [[(7, 0)], []]),
   (.outlet 4 1, []),
   (.obj, [[(9, 0)], []]),
   (.outlet 4 0, []),
   (.obj, [[(1, 0)]]),
   (.obj, []),
   (.obj, []),
   (.obj, [[(14, 0)]]),
   (.send 1, [[]])]

theorem shape_eq : shapeOf (nodes) = shape := rfl

theorem checked : check (shapeOf (nodes)) recvs order prio [0, 0, 0, 0, 0, 0, 0, 0, 0, 0, 0, 0, 0, 0, 0] = true := by
  rw [shape_eq]
  decide +kernel

theorem classes : clsOK (nodes) = true := rfl

theorem drv_valid {i : Nat} (h : i < 1) (m : Msg) : (Control.Src.outlet (drv i) 0 m).Valid (mkPatch (nodes) (recvsOf recvs) prio) (nodes).length := by
  have : i = 0 := by omega
  rcases this with rfl <;> exact ⟨Nat.le_of_ble_eq_true rfl, rfl, Nat.le_of_ble_eq_true rfl⟩

/-- messages for the inlets there are -/
def Inlet : Ev → Prop
  | .ext _ i _ => i < 1
  | .tick => True

theorem driven {e : Ev} (h : Inlet e) : Driven (nodes) (recvsOf recvs) prio drv e := by
  cases e with
  | ext t i m => exact drv_valid h
  | tick => trivial

theorem to_code {c : Ctx} {M : Mach} (hM : Code c M) {tab : Nat → List ℚ} {Fits : Ev → Prop} (hf : ∀ e, Fits e → Inlet e) {σ : Type}
    {on : σ → Ev → σ} {x0 : σ} {Sim : σ → St → Prop}
    (h : Simulates (mach c) drv (start c (nodes) tab) Fits on x0 Sim) :
    Simulates M drv (start c (nodes) tab) Fits on x0 (fun x s => Sim x s ∧ GoodQ (nodes) s) :=
  h.code (checked) (classes) hM fun e he => driven (hf e he)

/-- it compiles -/
theorem code_exists (c : Ctx) : ∃ M, Code c M := exists_compiled c (checked) (f := 20) (by rw [shape_eq]; decide +kernel)

/-! one lemma per object, for rewriting -/

theorem n1 (c : Ctx) (i : Nat) (m : Msg) : (sys c).node (1, i) m = .fwd false [((12, 0), m)] := rfl
theorem n2 (c : Ctx) (i : Nat) (m : Msg) : (sys c).node (2, i) m = .fwd false [((11, 0), m)] := rfl
theorem n4_0 (c : Ctx) (m : Msg) : (sys c).node (4, 0) m = .fwd false [((6, 0), m), ((8, 0), m)] := rfl
theorem n6 (c : Ctx) (i : Nat) (m : Msg) : (sys c).node (6, i) m = .obj (beh c (.slice 1 1) 6 i m) := rfl
theorem o6_0 (c : Ctx) : (sys c).out 6 0 = [(7, 0)] := rfl
theorem o6_1 (c : Ctx) : (sys c).out 6 1 = [] := rfl
theorem n7 (c : Ctx) (i : Nat) (m : Msg) : (sys c).node (7, i) m = .fwd false [((10, 0), m)] := rfl
theorem n8 (c : Ctx) (i : Nat) (m : Msg) : (sys c).node (8, i) m = .obj (beh c (.slice 0 1) 8 i m) := rfl
theorem o8_0 (c : Ctx) : (sys c).out 8 0 = [(9, 0)] := rfl
theorem o8_1 (c : Ctx) : (sys c).out 8 1 = [] := rfl
theorem n9 (c : Ctx) (i : Nat) (m : Msg) : (sys c).node (9, i) m = .fwd false [((2, 0), m)] := rfl
theorem n10 (c : Ctx) (i : Nat) (m : Msg) : (sys c).node (10, i) m = .obj (beh c (.bink .add 1) 10 i m) := rfl
theorem o10_0 (c : Ctx) : (sys c).out 10 0 = [(1, 0)] := rfl
theorem n11 (c : Ctx) (i : Nat) (m : Msg) : (sys c).node (11, i) m = .obj (beh c (.probe 0) 11 i m) := rfl
theorem n12 (c : Ctx) (i : Nat) (m : Msg) : (sys c).node (12, i) m = .obj (beh c (.probe 1) 12 i m) := rfl
theorem n13 (c : Ctx) (i : Nat) (m : Msg) : (sys c).node (13, i) m = .obj (beh c (.none) 13 i m) := rfl
theorem o13_0 (c : Ctx) : (sys c).out 13 0 = [(14, 0)] := rfl
theorem n14 (c : Ctx) (i : Nat) (m : Msg) : (sys c).node (14, i) m = .fwd true [((4, 0), m)] := rfl

attribute [lib_midirealtimein] n1 n2 n4_0 n6 o6_0 o6_1 n7 n8 o8_0 o8_1 n9 n10 o10_0 n11 n12 n13 o13_0 n14

end Verif.Lib.Midiin
