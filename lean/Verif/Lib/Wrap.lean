import Verif.LibSim
/-!
The abstraction `[wrap]`: transcription of hvcc/interpreters/pd2hv/libs/pd/wrap.pd and of the library files it uses, made by
tools/pdlib.py.  Object `0` is the abstraction itself, its outlets are connected to `.probe`s.
-/
set_option linter.unusedVariables false
set_option linter.style.longLine false
set_option maxRecDepth 100000
namespace Verif.Lib.Wrap
open Verif.Control (Dest Kind Cast Patch)

/-- the objects of hvcc/interpreters/pd2hv/libs/pd/wrap.pd: kind, connections of each outlet, class -/
def nodes : List Node :=
  [⟨.graph [1], [[(7, 0)]], .none⟩,  -- 0: wrap
   ⟨.inlet, [[(6, 0)]], .none⟩,  -- 1: wrap, object 0: inlet
   ⟨.obj, [[(3, 0)]], .bin .sub 0⟩,  -- 2: wrap, object 1: -
   ⟨.outlet 0 0, [], .none⟩,  -- 3: wrap, object 2: outlet
   ⟨.obj, [[(2, 1)]], .un .floor⟩,  -- 4: wrap, object 3: pd @hv_obj __floor
   ⟨.seq [none, none], [[(2, 0)], [(4, 0)]], .none⟩,  -- 5: wrap, object 4: t a a
   ⟨.cast .float, [[(5, 0)]], .none⟩,  -- 6: wrap, object 5: pd @hv_obj __cast_f
   ⟨.obj, [], .probe 0⟩,  -- 7: outlet 0 of the abstraction
   ⟨.obj, [[(0, 0)]], .none⟩]  -- 8: an object of the surrounding patch, connected to inlet 0

/-- receivers by name, in the order of the file: 0 = __hv_init -/
def recvs : List (List Nat) := [[]]

/-- priorities of receivers, PdReceiveObject.py:96-100 -/
def prio : Nat → Int
  | _ => 0

/-- the receivers in the order in which they fire -/
def order : List (List Nat) := [[]]

/-- the object connected to inlet `i` -/
def drv (i : Nat) : Nat := 8 + i

/-- the abstraction as it is (`Verif.Control`: C45, C35) -/
def mach (c : Ctx) : Mach := source c (nodes) (recvsOf recvs) prio (recvsOf order)

/-- `M` is generated code -/
def Code (c : Ctx) (M : Mach) : Prop := Compiled c (nodes) (recvsOf recvs) prio M

/-- what it means -/
def sys (c : Ctx) : Control.Sys St Msg := (mach c).sys

/-- kinds and connections -/
def shape : Shape :=
  [(.graph [1], [[(7, 0)]]),
   (.inlet, [[(6, 0)]]),
   (.obj, [[(3, 0)]]),
   (.outlet 0 0, []),
   (.obj, [[(2, 1)]]),
   (.seq [none, none], [[(2, 0)], [(4, 0)]]),
   (.cast .float, [[(5, 0)]]),
   (.obj, []),
   (.obj, [[(0, 0)]])]

theorem shape_eq : shapeOf (nodes) = shape := rfl

theorem checked : check (shapeOf (nodes)) recvs order prio [0, 0, 0, 0, 0, 1, 0, 0, 0] = true := by
  rw [shape_eq]
  decide +kernel

theorem classes : clsOK (nodes) = true := rfl

theorem drv_valid {i : Nat} (h : i < 1) (m : Msg) : (Control.Src.outlet (drv i) 0 m).Valid (mkPatch (nodes) (recvsOf recvs) prio) (nodes).length := by
  have : i = 0 := by omega
  rcases this with rfl <;> exact ⟨Nat.le_of_ble_eq_true rfl, rfl, Nat.le_of_ble_eq_true rfl⟩

/-- messages for the inlets there are -/
def Inlet : Ev → Prop
  | .ext _ i _ => i < 1
  | .tick => True

theorem driven {e : Ev} (h : Inlet e) : Driven (nodes) (recvsOf recvs) prio drv e := by
  cases e with
  | ext t i m => exact drv_valid h
  | tick => trivial

theorem to_code {c : Ctx} {M : Mach} (hM : Code c M) {tab : Nat → List ℚ} {Fits : Ev → Prop} (hf : ∀ e, Fits e → Inlet e) {σ : Type}
    {on : σ → Ev → σ} {x0 : σ} {Sim : σ → St → Prop}
    (h : Simulates (mach c) drv (start c (nodes) tab) Fits on x0 Sim) :
    Simulates M drv (start c (nodes) tab) Fits on x0 (fun x s => Sim x s ∧ GoodQ (nodes) s) :=
  h.code (checked) (classes) hM fun e he => driven (hf e he)

/-- it compiles -/
theorem code_exists (c : Ctx) : ∃ M, Code c M := exists_compiled c (checked) (f := 20) (by rw [shape_eq]; decide +kernel)

/-! one lemma per object, for rewriting -/

theorem n0_0 (c : Ctx) (m : Msg) : (sys c).node (0, 0) m = .fwd false [((6, 0), m)] := rfl
theorem n2 (c : Ctx) (i : Nat) (m : Msg) : (sys c).node (2, i) m = .obj (beh c (.bin .sub 0) 2 i m) := rfl
theorem o2_0 (c : Ctx) : (sys c).out 2 0 = [(3, 0)] := rfl
theorem n3 (c : Ctx) (i : Nat) (m : Msg) : (sys c).node (3, i) m = .fwd false [((7, 0), m)] := rfl
theorem n4 (c : Ctx) (i : Nat) (m : Msg) : (sys c).node (4, i) m = .obj (beh c (.un .floor) 4 i m) := rfl
theorem o4_0 (c : Ctx) : (sys c).out 4 0 = [(2, 1)] := rfl
theorem n5 (c : Ctx) (i : Nat) (m : Msg) : (sys c).node (5, i) m = .fwd false ([((4, 0), m)] ++ ([((2, 0), m)] ++ ([]))) := rfl
theorem n6 (c : Ctx) (i : Nat) (m : Msg) : (sys c).node (6, i) m = castNode .float [(5, 0)] m := by rcases m with _ | ⟨_ | _ | _, _⟩ <;> rfl
theorem n7 (c : Ctx) (i : Nat) (m : Msg) : (sys c).node (7, i) m = .obj (beh c (.probe 0) 7 i m) := rfl
theorem n8 (c : Ctx) (i : Nat) (m : Msg) : (sys c).node (8, i) m = .obj (beh c (.none) 8 i m) := rfl
theorem o8_0 (c : Ctx) : (sys c).out 8 0 = [(0, 0)] := rfl

attribute [lib_wrap] n0_0 n2 o2_0 n3 n4 o4_0 n5 n6 n7 n8 o8_0

end Verif.Lib.Wrap
