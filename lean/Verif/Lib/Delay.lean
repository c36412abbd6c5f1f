import Verif.LibSim
/-!
The abstraction `[delay]`: transcription of hvcc/interpreters/pd2hv/libs/pd/delay.pd and of the library files it uses, made by
tools/pdlib.py.  Object `0` is the abstraction itself, its outlets are connected to `.probe`s.
-/
set_option linter.unusedVariables false
set_option linter.style.longLine false
set_option maxRecDepth 100000
namespace Verif.Lib.Delay
open Verif.Control (Dest Kind Cast Patch)

/-- the objects of hvcc/interpreters/pd2hv/libs/pd/delay.pd: kind, connections of each outlet, class -/
def nodes (a1 : ℚ) : List Node :=
  [⟨.graph [1, 2], [[(8, 0)]], .none⟩,  -- 0: delay
   ⟨.inlet, [[(4, 0)]], .none⟩,  -- 1: delay, object 0: inlet
   ⟨.inlet, [[(6, 1)]], .none⟩,  -- 2: delay, object 1: inlet
   ⟨.outlet 0 0, [], .none⟩,  -- 3: delay, object 2: outlet
   ⟨.obj, [[(5, 0)], [(7, 0)]], .switch [(.sym "stop")]⟩,  -- 4: delay, object 4: pd @hv_obj __switchcase stop
   ⟨.obj, [[(6, 0)]], .msg [.lit (.sym "clear")]⟩,  -- 5: delay, object 5: clear
   ⟨.obj, [[(3, 0)]], .delay a1⟩,  -- 6: delay, object 6: pd @hv_obj __delay \$1
   ⟨.seq [some .bang, none, none], [[(6, 0)], [(6, 1)], [(5, 0)]], .none⟩,  -- 7: delay, object 7: t b a a
   ⟨.obj, [], .probe 0⟩,  -- 8: outlet 0 of the abstraction
   ⟨.obj, [[(0, 0)]], .none⟩,  -- 9: an object of the surrounding patch, connected to inlet 0
   ⟨.obj, [[(0, 1)]], .none⟩]  -- 10: an object of the surrounding patch, connected to inlet 1

/-- receivers by name, in the order of the file: 0 = __hv_init -/
def recvs : List (List Nat) := [[]]

/-- priorities of receivers, PdReceiveObject.py:96-100 -/
def prio : Nat → Int
  | _ => 0

/-- the receivers in the order in which they fire -/
def order : List (List Nat) := [[]]

/-- the object connected to inlet `i` -/
def drv (i : Nat) : Nat := 9 + i

/-- the abstraction as it is (`Verif.Control`: C45, C35) -/
def mach (a1 : ℚ) (c : Ctx) : Mach := source c (nodes a1) (recvsOf recvs) prio (recvsOf order)

/-- `M` is generated code -/
def Code (a1 : ℚ) (c : Ctx) (M : Mach) : Prop := Compiled c (nodes a1) (recvsOf recvs) prio M

/-- what it means -/
def sys (a1 : ℚ) (c : Ctx) : Control.Sys St Msg := (mach a1 c).sys

/-- kinds and connections -/
def shape : Shape :=
  [(.graph [1, 2], [[(8, 0)]]),
   (.inlet, [[(4, 0)]]),
   (.inlet, [[(6, 1)]]),
   (.outlet 0 0, []),
   (.obj, [[(5, 0)], [(7, 0)]]),
   (.obj, [[(6, 0)]]),
   (.obj, [[(3, 0)]]),
   (.seq [some .bang, none, none], [[(6, 0)], [(6, 1)], [(5, 0)]]),
   (.obj, []),
   (.obj, [[(0, 0)]]),
   (.obj, [[(0, 1)]])]

theorem shape_eq (a1 : ℚ) : shapeOf (nodes a1) = shape := rfl

theorem checked (a1 : ℚ) : check (shapeOf (nodes a1)) recvs order prio [0, 0, 0, 0, 0, 0, 0, 1, 0, 0, 0] = true := by
  rw [shape_eq]
  decide +kernel

theorem classes (a1 : ℚ) : clsOK (nodes a1) = true := rfl

theorem drv_valid (a1 : ℚ) {i : Nat} (h : i < 2) (m : Msg) : (Control.Src.outlet (drv i) 0 m).Valid (mkPatch (nodes a1) (recvsOf recvs) prio) (nodes a1).length := by
  have : i = 0 ∨ i = 1 := by omega
  rcases this with rfl | rfl <;> exact ⟨Nat.le_of_ble_eq_true rfl, rfl, Nat.le_of_ble_eq_true rfl⟩

/-- messages for the inlets there are -/
def Inlet : Ev → Prop
  | .ext _ i _ => i < 2
  | .tick => True

theorem driven (a1 : ℚ) {e : Ev} (h : Inlet e) : Driven (nodes a1) (recvsOf recvs) prio drv e := by
  cases e with
  | ext t i m => exact drv_valid a1 h
  | tick => trivial

theorem to_code {c : Ctx} {a1 : ℚ} {M : Mach} (hM : Code a1 c M) {tab : Nat → List ℚ} {Fits : Ev → Prop} (hf : ∀ e, Fits e → Inlet e) {σ : Type}
    {on : σ → Ev → σ} {x0 : σ} {Sim : σ → St → Prop}
    (h : Simulates (mach a1 c) drv (start c (nodes a1) tab) Fits on x0 Sim) :
    Simulates M drv (start c (nodes a1) tab) Fits on x0 (fun x s => Sim x s ∧ GoodQ (nodes a1) s) :=
  h.code (checked a1) (classes a1) hM fun e he => driven a1 (hf e he)

/-- it compiles -/
theorem code_exists (a1 : ℚ) (c : Ctx) : ∃ M, Code a1 c M := exists_compiled c (checked a1) (f := 20) (by rw [shape_eq]; decide +kernel)

/-! one lemma per object, for rewriting -/

theorem n0_0 (a1 : ℚ) (c : Ctx) (m : Msg) : (sys a1 c).node (0, 0) m = .fwd false [((4, 0), m)] := rfl
theorem n0_1 (a1 : ℚ) (c : Ctx) (m : Msg) : (sys a1 c).node (0, 1) m = .fwd false [((6, 1), m)] := rfl
theorem n3 (a1 : ℚ) (c : Ctx) (i : Nat) (m : Msg) : (sys a1 c).node (3, i) m = .fwd false [((8, 0), m)] := rfl
theorem n4 (a1 : ℚ) (c : Ctx) (i : Nat) (m : Msg) : (sys a1 c).node (4, i) m = .obj (beh c (.switch [(.sym "stop")]) 4 i m) := rfl
theorem o4_0 (a1 : ℚ) (c : Ctx) : (sys a1 c).out 4 0 = [(5, 0)] := rfl
theorem o4_1 (a1 : ℚ) (c : Ctx) : (sys a1 c).out 4 1 = [(7, 0)] := rfl
theorem n5 (a1 : ℚ) (c : Ctx) (i : Nat) (m : Msg) : (sys a1 c).node (5, i) m = .obj (beh c (.msg [.lit (.sym "clear")]) 5 i m) := rfl
theorem o5_0 (a1 : ℚ) (c : Ctx) : (sys a1 c).out 5 0 = [(6, 0)] := rfl
theorem n6 (a1 : ℚ) (c : Ctx) (i : Nat) (m : Msg) : (sys a1 c).node (6, i) m = .obj (beh c (.delay a1) 6 i m) := rfl
theorem o6_0 (a1 : ℚ) (c : Ctx) : (sys a1 c).out 6 0 = [(3, 0)] := rfl
theorem n7 (a1 : ℚ) (c : Ctx) (i : Nat) (m : Msg) : (sys a1 c).node (7, i) m = .fwd false ([((5, 0), m)] ++ ([((6, 1), m)] ++ (castTo .bang [(6, 0)] m ++ ([])))) := rfl
theorem n8 (a1 : ℚ) (c : Ctx) (i : Nat) (m : Msg) : (sys a1 c).node (8, i) m = .obj (beh c (.probe 0) 8 i m) := rfl
theorem n9 (a1 : ℚ) (c : Ctx) (i : Nat) (m : Msg) : (sys a1 c).node (9, i) m = .obj (beh c (.none) 9 i m) := rfl
theorem o9_0 (a1 : ℚ) (c : Ctx) : (sys a1 c).out 9 0 = [(0, 0)] := rfl
theorem n10 (a1 : ℚ) (c : Ctx) (i : Nat) (m : Msg) : (sys a1 c).node (10, i) m = .obj (beh c (.none) 10 i m) := rfl
theorem o10_0 (a1 : ℚ) (c : Ctx) : (sys a1 c).out 10 0 = [(0, 1)] := rfl

attribute [lib_delay] n0_0 n0_1 n3 n4 o4_0 o4_1 n5 o5_0 n6 o6_0 n7 n8 n9 o9_0 n10 o10_0

end Verif.Lib.Delay
