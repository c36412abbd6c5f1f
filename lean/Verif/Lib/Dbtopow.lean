import Verif.LibSim
/-!
The abstraction `[dbtopow]`: transcription of hvcc/interpreters/pd2hv/libs/pd/dbtopow.pd and of the library files it uses, made by
tools/pdlib.py.  Object `0` is the abstraction itself, its outlets are connected to `.probe`s.
-/
set_option linter.unusedVariables false
set_option linter.style.longLine false
set_option maxRecDepth 100000
namespace Verif.Lib.Dbtopow
open Verif.Control (Dest Kind Cast Patch)

/-- the objects of hvcc/interpreters/pd2hv/libs/pd/dbtopow.pd: kind, connections of each outlet, class -/
def nodes : List Node :=
  [⟨.graph [4], [[(13, 0)]], .none⟩,  -- 0: dbtopow
   ⟨.obj, [[(2, 0)]], .msg [.lit (.float 10)]⟩,  -- 1: dbtopow, object 0: 10
   ⟨.obj, [[(5, 0)]], .pow 0⟩,  -- 2: dbtopow, object 1: pow
   ⟨.obj, [[(12, 0)]], .bink .sub 100⟩,  -- 3: dbtopow, object 2: - 100
   ⟨.inlet, [[(6, 0)]], .none⟩,  -- 4: dbtopow, object 3: inlet
   ⟨.outlet 0 0, [], .none⟩,  -- 5: dbtopow, object 4: outlet
   ⟨.seq [some .float, some .float], [[(11, 0)], [(7, 0)]], .none⟩,  -- 6: dbtopow, object 5: t f f
   ⟨.obj, [[(11, 1)]], .bink .gt 0⟩,  -- 7: dbtopow, object 6: > 0
   ⟨.obj, [[(5, 0)]], .msg [.lit (.float 0)]⟩,  -- 8: dbtopow, object 7: 0
   ⟨.obj, [[(3, 0)]], .bink .min 870⟩,  -- 9: dbtopow, object 8: min 870
   ⟨.seq [none, none], [[(1, 0)], [(2, 1)]], .none⟩,  -- 10: dbtopow, object 9: t a a
   ⟨.obj, [[(8, 0)], [(9, 0)]], .ite 0⟩,  -- 11: dbtopow, object 10: pd @hv_obj __if
   ⟨.obj, [[(10, 0)]], .bink .div 10⟩,  -- 12: dbtopow, object 11: / 10
   ⟨.obj, [], .probe 0⟩,  -- 13: outlet 0 of the abstraction
   ⟨.obj, [[(0, 0)]], .none⟩]  -- 14: an object of the surrounding patch, connected to inlet 0

/-- receivers by name, in the order of the file: 0 = __hv_init -/
def recvs : List (List Nat) := [[]]

/-- priorities of receivers, PdReceiveObject.py:96-100 -/
def prio : Nat → Int
  | _ => 0

/-- the receivers in the order in which they fire -/
def order : List (List Nat) := [[]]

/-- the object connected to inlet `i` -/
def drv (i : Nat) : Nat := 14 + i

/-- the abstraction as it is (`Verif.Control`: C45, C35) -/
def mach (c : Ctx) : Mach := source c (nodes) (recvsOf recvs) prio (recvsOf order)

/-- `M` is generated code -/
def Code (c : Ctx) (M : Mach) : Prop := Compiled c (nodes) (recvsOf recvs) prio M

/-- what it means -/
def sys (c : Ctx) : Control.Sys St Msg := (mach c).sys

/-- kinds and connections -/
def shape : Shape :=
  [(.graph [4], [[(13, 0)]]),
   (.obj, [[(2, 0)]]),
   (.obj, [[(5, 0)]]),
   (.obj, [[(12, 0)]]),
   (.inlet, [[(6, 0)]]),
   (.outlet 0 0, []),
   (.seq [some .float, some .float], [[(11, 0)], [(7, 0)]]),
   (.obj, [[(11, 1)]]),
   (.obj, [[(5, 0)]]),
   (.obj, [[(3, 0)]]),
   (.seq [none, none], [[(1, 0)], [(2, 1)]]),
   (.obj, [[(8, 0)], [(9, 0)]]),
   (.obj, [[(10, 0)]]),
   (.obj, []),
   (.obj, [[(0, 0)]])]

theorem shape_eq : shapeOf (nodes) = shape := rfl

theorem checked : check (shapeOf (nodes)) recvs order prio [0, 0, 0, 0, 0, 0, 1, 0, 0, 0, 1, 0, 0, 0, 0] = true := by
  rw [shape_eq]
  decide +kernel

theorem classes : clsOK (nodes) = true := rfl

theorem drv_valid {i : Nat} (h : i < 1) (m : Msg) : (Control.Src.outlet (drv i) 0 m).Valid (mkPatch (nodes) (recvsOf recvs) prio) (nodes).length := by
  have : i = 0 := by omega
  rcases this with rfl <;> exact ⟨Nat.le_of_ble_eq_true rfl, rfl, Nat.le_of_ble_eq_true rfl⟩

/-- messages for the inlets there are -/
def Inlet : Ev → Prop
  | .ext _ i _ => i < 1
  | .tick => True

theorem driven {e : Ev} (h : Inlet e) : Driven (nodes) (recvsOf recvs) prio drv e := by
  cases e with
  | ext t i m => exact drv_valid h
  | tick => trivial

theorem to_code {c : Ctx} {M : Mach} (hM : Code c M) {tab : Nat → List ℚ} {Fits : Ev → Prop} (hf : ∀ e, Fits e → Inlet e) {σ : Type}
    {on : σ → Ev → σ} {x0 : σ} {Sim : σ → St → Prop}
    (h : Simulates (mach c) drv (start c (nodes) tab) Fits on x0 Sim) :
    Simulates M drv (start c (nodes) tab) Fits on x0 (fun x s => Sim x s ∧ GoodQ (nodes) s) :=
  h.code (checked) (classes) hM fun e he => driven (hf e he)

/-- it compiles -/
theorem code_exists (c : Ctx) : ∃ M, Code c M := exists_compiled c (checked) (f := 20) (by rw [shape_eq]; decide +kernel)

/-! one lemma per object, for rewriting -/

theorem n0_0 (c : Ctx) (m : Msg) : (sys c).node (0, 0) m = .fwd false [((6, 0), m)] := rfl
theorem n1 (c : Ctx) (i : Nat) (m : Msg) : (sys c).node (1, i) m = .obj (beh c (.msg [.lit (.float 10)]) 1 i m) := rfl
theorem o1_0 (c : Ctx) : (sys c).out 1 0 = [(2, 0)] := rfl
theorem n2 (c : Ctx) (i : Nat) (m : Msg) : (sys c).node (2, i) m = .obj (beh c (.pow 0) 2 i m) := rfl
theorem o2_0 (c : Ctx) : (sys c).out 2 0 = [(5, 0)] := rfl
theorem n3 (c : Ctx) (i : Nat) (m : Msg) : (sys c).node (3, i) m = .obj (beh c (.bink .sub 100) 3 i m) := rfl
theorem o3_0 (c : Ctx) : (sys c).out 3 0 = [(12, 0)] := rfl
theorem n5 (c : Ctx) (i : Nat) (m : Msg) : (sys c).node (5, i) m = .fwd false [((13, 0), m)] := rfl
theorem n6 (c : Ctx) (i : Nat) (m : Msg) : (sys c).node (6, i) m = .fwd false (castTo .float [(7, 0)] m ++ (castTo .float [(11, 0)] m ++ ([]))) := by rcases m with _ | ⟨_ | _ | _, _⟩ <;> rfl
theorem n7 (c : Ctx) (i : Nat) (m : Msg) : (sys c).node (7, i) m = .obj (beh c (.bink .gt 0) 7 i m) := rfl
theorem o7_0 (c : Ctx) : (sys c).out 7 0 = [(11, 1)] := rfl
theorem n8 (c : Ctx) (i : Nat) (m : Msg) : (sys c).node (8, i) m = .obj (beh c (.msg [.lit (.float 0)]) 8 i m) := rfl
theorem o8_0 (c : Ctx) : (sys c).out 8 0 = [(5, 0)] := rfl
theorem n9 (c : Ctx) (i : Nat) (m : Msg) : (sys c).node (9, i) m = .obj (beh c (.bink .min 870) 9 i m) := rfl
theorem o9_0 (c : Ctx) : (sys c).out 9 0 = [(3, 0)] := rfl
theorem n10 (c : Ctx) (i : Nat) (m : Msg) : (sys c).node (10, i) m = .fwd false ([((2, 1), m)] ++ ([((1, 0), m)] ++ ([]))) := rfl
theorem n11 (c : Ctx) (i : Nat) (m : Msg) : (sys c).node (11, i) m = .obj (beh c (.ite 0) 11 i m) := rfl
theorem o11_0 (c : Ctx) : (sys c).out 11 0 = [(8, 0)] := rfl
theorem o11_1 (c : Ctx) : (sys c).out 11 1 = [(9, 0)] := rfl
theorem n12 (c : Ctx) (i : Nat) (m : Msg) : (sys c).node (12, i) m = .obj (beh c (.bink .div 10) 12 i m) := rfl
theorem o12_0 (c : Ctx) : (sys c).out 12 0 = [(10, 0)] := rfl
theorem n13 (c : Ctx) (i : Nat) (m : Msg) : (sys c).node (13, i) m = .obj (beh c (.probe 0) 13 i m) := rfl
theorem n14 (c : Ctx) (i : Nat) (m : Msg) : (sys c).node (14, i) m = .obj (beh c (.none) 14 i m) := rfl
theorem o14_0 (c : Ctx) : (sys c).out 14 0 = [(0, 0)] := rfl

attribute [lib_dbtopow] n0_0 n1 o1_0 n2 o2_0 n3 o3_0 n5 n6 n7 o7_0 n8 o8_0 n9 o9_0 n10 n11 o11_0 o11_1 n12 o12_0 n13 n14 o14_0

end Verif.Lib.Dbtopow
