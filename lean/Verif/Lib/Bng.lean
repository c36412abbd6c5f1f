import Verif.LibSim
/-!
The abstraction `[bng]`: transcription of hvcc/interpreters/pd2hv/libs/pd/bng.pd and of the library files it uses, made by
tools/pdlib.py.  Object `0` is the abstraction itself, its outlets are connected to `.probe`s.
-/
set_option linter.unusedVariables false
set_option linter.style.longLine false
set_option maxRecDepth 100000
namespace Verif.Lib.Bng
open Verif.Control (Dest Kind Cast Patch)

/-- the objects of hvcc/interpreters/pd2hv/libs/pd/bng.pd: kind, connections of each outlet, class -/
def nodes : List Node :=
  [⟨.graph [1], [[(4, 0)]], .none⟩,  -- 0: bng
   ⟨.inlet, [[(2, 0)]], .none⟩,  -- 1: bng, object 0: inlet -->
   ⟨.cast .bang, [[(3, 0)]], .none⟩,  -- 2: bng, object 1: pd @hv_obj __cast_b
   ⟨.outlet 0 0, [], .none⟩,  -- 3: bng, object 2: outlet -->
   ⟨.obj, [], .probe 0⟩,  -- 4: outlet 0 of the abstraction
   ⟨.obj, [[(0, 0)]], .none⟩]  -- 5: an object of the surrounding patch, connected to inlet 0

/-- receivers by name, in the order of the file: 0 = __hv_init -/
def recvs : List (List Nat) := [[]]

/-- priorities of receivers, PdReceiveObject.py:96-100 -/
def prio : Nat → Int
  | _ => 0

/-- the receivers in the order in which they fire -/
def order : List (List Nat) := [[]]

/-- the object connected to inlet `i` -/
def drv (i : Nat) : Nat := 5 + i

/-- the abstraction as it is (`Verif.Control`: C45, C35) -/
def mach (c : Ctx) : Mach := source c (nodes) (recvsOf recvs) prio (recvsOf order)

/-- `M` is generated code -/
def Code (c : Ctx) (M : Mach) : Prop := Compiled c (nodes) (recvsOf recvs) prio M

/-- what it means -/
def sys (c : Ctx) : Control.Sys St Msg := (mach c).sys

/-- kinds and connections -/
def shape : Shape :=
  [(.graph [1], [[(4, 0)]]),
   (.inlet, [[(2, 0)]]),
   (.cast .bang, [[(3, 0)]]),
   (.outlet 0 0, []),
   (.obj, []),
   (.obj, [[(0, 0)]])]

theorem shape_eq : shapeOf (nodes) = shape := rfl

theorem checked : check (shapeOf (nodes)) recvs order prio [0, 0, 0, 0, 0, 0] = true := by
  rw [shape_eq]
  decide +kernel

theorem classes : clsOK (nodes) = true := rfl

theorem drv_valid {i : Nat} (h : i < 1) (m : Msg) : (Control.Src.outlet (drv i) 0 m).Valid (mkPatch (nodes) (recvsOf recvs) prio) (nodes).length := by
  have : i = 0 := by omega
  rcases this with rfl <;> exact ⟨Nat.le_of_ble_eq_true rfl, rfl, Nat.le_of_ble_eq_true rfl⟩

/-- messages for the inlets there are -/
def Inlet : Ev → Prop
  | .ext _ i _ => i < 1
  | .tick => True

theorem driven {e : Ev} (h : Inlet e) : Driven (nodes) (recvsOf recvs) prio drv e := by
  cases e with
  | ext t i m => exact drv_valid h
  | tick => trivial

theorem to_code {c : Ctx} {M : Mach} (hM : Code c M) {tab : Nat → List ℚ} {Fits : Ev → Prop} (hf : ∀ e, Fits e → Inlet e) {σ : Type}
    {on : σ → Ev → σ} {x0 : σ} {Sim : σ → St → Prop}
    (h : Simulates (mach c) drv (start c (nodes) tab) Fits on x0 Sim) :
    Simulates M drv (start c (nodes) tab) Fits on x0 (fun x s => Sim x s ∧ GoodQ (nodes) s) :=
  h.code (checked) (classes) hM fun e he => driven (hf e he)

/-- it compiles -/
theorem code_exists (c : Ctx) : ∃ M, Code c M := exists_compiled c (checked) (f := 20) (by rw [shape_eq]; decide +kernel)

/-! one lemma per object, for rewriting -/

theorem n0_0 (c : Ctx) (m : Msg) : (sys c).node (0, 0) m = .fwd false [((2, 0), m)] := rfl
theorem n2 (c : Ctx) (i : Nat) (m : Msg) : (sys c).node (2, i) m = castNode .bang [(3, 0)] m := rfl
theorem n3 (c : Ctx) (i : Nat) (m : Msg) : (sys c).node (3, i) m = .fwd false [((4, 0), m)] := rfl
theorem n4 (c : Ctx) (i : Nat) (m : Msg) : (sys c).node (4, i) m = .obj (beh c (.probe 0) 4 i m) := rfl
theorem n5 (c : Ctx) (i : Nat) (m : Msg) : (sys c).node (5, i) m = .obj (beh c (.none) 5 i m) := rfl
theorem o5_0 (c : Ctx) : (sys c).out 5 0 = [(0, 0)] := rfl

attribute [lib_bng] n0_0 n2 n3 n4 n5 o5_0

end Verif.Lib.Bng
