import Verif.LibSim
/-!
The abstraction `[rmstodb]`: transcription of hvcc/interpreters/pd2hv/libs/pd/rmstodb.pd and of the library files it uses, made by
tools/pdlib.py.  Object `0` is the abstraction itself, its outlets are connected to `.probe`s.
-/
set_option linter.unusedVariables false
set_option linter.style.longLine false
set_option maxRecDepth 100000
namespace Verif.Lib.Rmstodb
open Verif.Control (Dest Kind Cast Patch)

/-- the objects of hvcc/interpreters/pd2hv/libs/pd/rmstodb.pd: kind, connections of each outlet, class -/
def nodes : List Node :=
  [⟨.graph [1], [[(11, 0)]], .none⟩,  -- 0: rmstodb
   ⟨.inlet, [[(3, 0)]], .none⟩,  -- 1: rmstodb, object 0: inlet
   ⟨.outlet 0 0, [], .none⟩,  -- 2: rmstodb, object 1: outlet
   ⟨.seq [some .float, some .float], [[(9, 0)], [(8, 0)]], .none⟩,  -- 3: rmstodb, object 2: t f f
   ⟨.obj, [[(2, 0)]], .msg [.lit (.float 0)]⟩,  -- 4: rmstodb, object 3: 0
   ⟨.obj, [[(6, 0)]], .bink .mul 20⟩,  -- 5: rmstodb, object 4: * 20
   ⟨.obj, [[(7, 0)]], .bink .add 100⟩,  -- 6: rmstodb, object 5: + 100
   ⟨.obj, [[(2, 0)]], .bink .max 0⟩,  -- 7: rmstodb, object 6: max 0
   ⟨.obj, [[(9, 1)]], .bink .gt 0⟩,  -- 8: rmstodb, object 7: > 0
   ⟨.obj, [[(4, 0)], [(10, 0)]], .ite 0⟩,  -- 9: rmstodb, object 8: pd @hv_obj __if
   ⟨.obj, [[(5, 0)]], .fn "log10"⟩,  -- 10: rmstodb, object 9: pd @hv_obj __log10
   ⟨.obj, [], .probe 0⟩,  -- 11: outlet 0 of the abstraction
   ⟨.obj, [[(0, 0)]], .none⟩]  -- 12: an object of the surrounding patch, connected to inlet 0

/-- receivers by name, in the order of the file: 0 = __hv_init -/
def recvs : List (List Nat) := [[]]

/-- priorities of receivers, PdReceiveObject.py:96-100 -/
def prio : Nat → Int
  | _ => 0

/-- the receivers in the order in which they fire -/
def order : List (List Nat) := [[]]

/-- the object connected to inlet `i` -/
def drv (i : Nat) : Nat := 12 + i

/-- the abstraction as it is (`Verif.Control`: C45, C35) -/
def mach (c : Ctx) : Mach := source c (nodes) (recvsOf recvs) prio (recvsOf order)

/-- `M` is generated code -/
def Code (c : Ctx) (M : Mach) : Prop := Compiled c (nodes) (recvsOf recvs) prio M

/-- what it means -/
def sys (c : Ctx) : Control.Sys St Msg := (mach c).sys

/-- kinds and connections -/
def shape : Shape :=
  [(.graph [1], [[(11, 0)]]),
   (.inlet, [[(3, 0)]]),
   (.outlet 0 0, []),
   (.seq [some .float, some .float], [[(9, 0)], [(8, 0)]]),
   (.obj, [[(2, 0)]]),
   (.obj, [[(6, 0)]]),
   (.obj, [[(7, 0)]]),
   (.obj, [[(2, 0)]]),
   (.obj, [[(9, 1)]]),
   (.obj, [[(4, 0)], [(10, 0)]]),
   (.obj, [[(5, 0)]]),
   (.obj, []),
   (.obj, [[(0, 0)]])]

theorem shape_eq : shapeOf (nodes) = shape := rfl

theorem checked : check (shapeOf (nodes)) recvs order prio [0, 0, 0, 1, 0, 0, 0, 0, 0, 0, 0, 0, 0] = true := by
  rw [shape_eq]
  decide +kernel

theorem classes : clsOK (nodes) = true := rfl

theorem drv_valid {i : Nat} (h : i < 1) (m : Msg) : (Control.Src.outlet (drv i) 0 m).Valid (mkPatch (nodes) (recvsOf recvs) prio) (nodes).length := by
  have : i = 0 := by omega
  rcases this with rfl <;> exact ⟨Nat.le_of_ble_eq_true rfl, rfl, Nat.le_of_ble_eq_true rfl⟩

/-- messages for the inlets there are -/
def Inlet : Ev → Prop
  | .ext _ i _ => i < 1
  | .tick => True

theorem driven {e : Ev} (h : Inlet e) : Driven (nodes) (recvsOf recvs) prio drv e := by
  cases e with
  | ext t i m => exact drv_valid h
  | tick => trivial

theorem to_code {c : Ctx} {M : Mach} (hM : Code c M) {tab : Nat → List ℚ} {Fits : Ev → Prop} (hf : ∀ e, Fits e → Inlet e) {σ : Type}
    {on : σ → Ev → σ} {x0 : σ} {Sim : σ → St → Prop}
    (h : Simulates (mach c) drv (start c (nodes) tab) Fits on x0 Sim) :
    Simulates M drv (start c (nodes) tab) Fits on x0 (fun x s => Sim x s ∧ GoodQ (nodes) s) :=
  h.code (checked) (classes) hM fun e he => driven (hf e he)

/-- it compiles -/
theorem code_exists (c : Ctx) : ∃ M, Code c M := exists_compiled c (checked) (f := 20) (by rw [shape_eq]; decide +kernel)

/-! one lemma per object, for rewriting -/

theorem n0_0 (c : Ctx) (m : Msg) : (sys c).node (0, 0) m = .fwd false [((3, 0), m)] := rfl
theorem n2 (c : Ctx) (i : Nat) (m : Msg) : (sys c).node (2, i) m = .fwd false [((11, 0), m)] := rfl
theorem n3 (c : Ctx) (i : Nat) (m : Msg) : (sys c).node (3, i) m = .fwd false (castTo .float [(8, 0)] m ++ (castTo .float [(9, 0)] m ++ ([]))) := by rcases m with _ | ⟨_ | _ | _, _⟩ <;> rfl
theorem n4 (c : Ctx) (i : Nat) (m : Msg) : (sys c).node (4, i) m = .obj (beh c (.msg [.lit (.float 0)]) 4 i m) := rfl
theorem o4_0 (c : Ctx) : (sys c).out 4 0 = [(2, 0)] := rfl
theorem n5 (c : Ctx) (i : Nat) (m : Msg) : (sys c).node (5, i) m = .obj (beh c (.bink .mul 20) 5 i m) := rfl
theorem o5_0 (c : Ctx) : (sys c).out 5 0 = [(6, 0)] := rfl
theorem n6 (c : Ctx) (i : Nat) (m : Msg) : (sys c).node (6, i) m = .obj (beh c (.bink .add 100) 6 i m) := rfl
theorem o6_0 (c : Ctx) : (sys c).out 6 0 = [(7, 0)] := rfl
theorem n7 (c : Ctx) (i : Nat) (m : Msg) : (sys c).node (7, i) m = .obj (beh c (.bink .max 0) 7 i m) := rfl
theorem o7_0 (c : Ctx) : (sys c).out 7 0 = [(2, 0)] := rfl
theorem n8 (c : Ctx) (i : Nat) (m : Msg) : (sys c).node (8, i) m = .obj (beh c (.bink .gt 0) 8 i m) := rfl
theorem o8_0 (c : Ctx) : (sys c).out 8 0 = [(9, 1)] := rfl
theorem n9 (c : Ctx) (i : Nat) (m : Msg) : (sys c).node (9, i) m = .obj (beh c (.ite 0) 9 i m) := rfl
theorem o9_0 (c : Ctx) : (sys c).out 9 0 = [(4, 0)] := rfl
theorem o9_1 (c : Ctx) : (sys c).out 9 1 = [(10, 0)] := rfl
theorem n10 (c : Ctx) (i : Nat) (m : Msg) : (sys c).node (10, i) m = .obj (beh c (.fn "log10") 10 i m) := rfl
theorem o10_0 (c : Ctx) : (sys c).out 10 0 = [(5, 0)] := rfl
theorem n11 (c : Ctx) (i : Nat) (m : Msg) : (sys c).node (11, i) m = .obj (beh c (.probe 0) 11 i m) := rfl
theorem n12 (c : Ctx) (i : Nat) (m : Msg) : (sys c).node (12, i) m = .obj (beh c (.none) 12 i m) := rfl
theorem o12_0 (c : Ctx) : (sys c).out 12 0 = [(0, 0)] := rfl

attribute [lib_rmstodb] n0_0 n2 n3 n4 o4_0 n5 o5_0 n6 o6_0 n7 o7_0 n8 o8_0 n9 o9_0 o9_1 n10 o10_0 n11 n12 o12_0

end Verif.Lib.Rmstodb
