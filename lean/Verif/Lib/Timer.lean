import Verif.LibSim
/-!
The abstraction `[timer]`: transcription of hvcc/interpreters/pd2hv/libs/pd/timer.pd and of the library files it uses, made by
tools/pdlib.py.  Object `0` is the abstraction itself, its outlets are connected to `.probe`s.
-/
set_option linter.unusedVariables false
set_option linter.style.longLine false
set_option maxRecDepth 100000
namespace Verif.Lib.Timer
open Verif.Control (Dest Kind Cast Patch)

/-- the objects of hvcc/interpreters/pd2hv/libs/pd/timer.pd: kind, connections of each outlet, class -/
def nodes : List Node :=
  [⟨.graph [1, 2], [[(14, 0)]], .none⟩,  -- 0: timer
   ⟨.inlet, [[(5, 0)]], .none⟩,  -- 1: timer, object 0: inlet
   ⟨.inlet, [[(10, 0)]], .none⟩,  -- 2: timer, object 1: inlet
   ⟨.outlet 0 0, [], .none⟩,  -- 3: timer, object 2: outlet
   ⟨.obj, [[(6, 1)]], .system⟩,  -- 4: timer, object 3: pd @hv_obj system
   ⟨.obj, [[(4, 0)]], .msg [.lit (.sym "currentTime")]⟩,  -- 5: timer, object 4: currentTime
   ⟨.obj, [[(9, 0)]], .bin .sub 0⟩,  -- 6: timer, object 5: -
   ⟨.obj, [[(6, 0)]], .system⟩,  -- 7: timer, object 6: pd @hv_obj system
   ⟨.obj, [[(7, 0)]], .msg [.lit (.sym "currentTime")]⟩,  -- 8: timer, object 7: currentTime
   ⟨.obj, [[(3, 0)]], .bin .div 0⟩,  -- 9: timer, object 8: /
   ⟨.seq [none, none], [[(8, 0)], [(12, 0)]], .none⟩,  -- 10: timer, object 9: t a a
   ⟨.obj, [[(13, 0)]], .system⟩,  -- 11: timer, object 10: pd @hv_obj system
   ⟨.obj, [[(11, 0)]], .msg [.lit (.sym "samplerate")]⟩,  -- 12: timer, object 11: samplerate
   ⟨.obj, [[(9, 1)]], .bink .div 1000⟩,  -- 13: timer, object 12: / 1000
   ⟨.obj, [], .probe 0⟩,  -- 14: outlet 0 of the abstraction
   ⟨.obj, [[(0, 0)]], .none⟩,  -- 15: an object of the surrounding patch, connected to inlet 0
   ⟨.obj, [[(0, 1)]], .none⟩]  -- 16: an object of the surrounding patch, connected to inlet 1

/-- receivers by name, in the order of the file: 0 = __hv_init -/
def recvs : List (List Nat) := [[]]

/-- priorities of receivers, PdReceiveObject.py:96-100 -/
def prio : Nat → Int
  | _ => 0

/-- the receivers in the order in which they fire -/
def order : List (List Nat) := [[]]

/-- the object connected to inlet `i` -/
def drv (i : Nat) : Nat := 15 + i

/-- the abstraction as it is (`Verif.Control`: C45, C35) -/
def mach (c : Ctx) : Mach := source c (nodes) (recvsOf recvs) prio (recvsOf order)

/-- `M` is generated code -/
def Code (c : Ctx) (M : Mach) : Prop := Compiled c (nodes) (recvsOf recvs) prio M

/-- what it means -/
def sys (c : Ctx) : Control.Sys St Msg := (mach c).sys

/-- kinds and connections -/
def shape : Shape :=
  [(.graph [1, 2], [[(14, 0)]]),
   (.inlet, [[(5, 0)]]),
   (.inlet, [[(10, 0)]]),
   (.outlet 0 0, []),
   (.obj, [[(6, 1)]]),
   (.obj, [[(4, 0)]]),
   (.obj, [[(9, 0)]]),
   (.obj, [[(6, 0)]]),
   (.obj, [[(7, 0)]]),
   (.obj, [[(3, 0)]]),
   (.seq [none, none], [[(8, 0)], [(12, 0)]]),
   (.obj, [[(13, 0)]]),
   (.obj, [[(11, 0)]]),
   (.obj, [[(9, 1)]]),
   (.obj, []),
   (.obj, [[(0, 0)]]),
   (.obj, [[(0, 1)]])]

theorem shape_eq : shapeOf (nodes) = shape := rfl

theorem checked : check (shapeOf (nodes)) recvs order prio [0, 0, 0, 0, 0, 0, 0, 0, 0, 0, 1, 0, 0, 0, 0, 0, 0] = true := by
  rw [shape_eq]
  decide +kernel

theorem classes : clsOK (nodes) = true := rfl

theorem drv_valid {i : Nat} (h : i < 2) (m : Msg) : (Control.Src.outlet (drv i) 0 m).Valid (mkPatch (nodes) (recvsOf recvs) prio) (nodes).length := by
  have : i = 0 ∨ i = 1 := by omega
  rcases this with rfl | rfl <;> exact ⟨Nat.le_of_ble_eq_true rfl, rfl, Nat.le_of_ble_eq_true rfl⟩

/-- messages for the inlets there are -/
def Inlet : Ev → Prop
  | .ext _ i _ => i < 2
  | .tick => True

theorem driven {e : Ev} (h : Inlet e) : Driven (nodes) (recvsOf recvs) prio drv e := by
  cases e with
  | ext t i m => exact drv_valid h
  | tick => trivial

theorem to_code {c : Ctx} {M : Mach} (hM : Code c M) {tab : Nat → List ℚ} {Fits : Ev → Prop} (hf : ∀ e, Fits e → Inlet e) {σ : Type}
    {on : σ → Ev → σ} {x0 : σ} {Sim : σ → St → Prop}
    (h : Simulates (mach c) drv (start c (nodes) tab) Fits on x0 Sim) :
    Simulates M drv (start c (nodes) tab) Fits on x0 (fun x s => Sim x s ∧ GoodQ (nodes) s) :=
  h.code (checked) (classes) hM fun e he => driven (hf e he)

/-- it compiles -/
theorem code_exists (c : Ctx) : ∃ M, Code c M := exists_compiled c (checked) (f := 20) (by rw [shape_eq]; decide +kernel)

/-! one lemma per object, for rewriting -/

theorem n0_0 (c : Ctx) (m : Msg) : (sys c).node (0, 0) m = .fwd false [((5, 0), m)] := rfl
theorem n0_1 (c : Ctx) (m : Msg) : (sys c).node (0, 1) m = .fwd false [((10, 0), m)] := rfl
theorem n3 (c : Ctx) (i : Nat) (m : Msg) : (sys c).node (3, i) m = .fwd false [((14, 0), m)] := rfl
theorem n4 (c : Ctx) (i : Nat) (m : Msg) : (sys c).node (4, i) m = .obj (beh c (.system) 4 i m) := rfl
theorem o4_0 (c : Ctx) : (sys c).out 4 0 = [(6, 1)] := rfl
theorem n5 (c : Ctx) (i : Nat) (m : Msg) : (sys c).node (5, i) m = .obj (beh c (.msg [.lit (.sym "currentTime")]) 5 i m) := rfl
theorem o5_0 (c : Ctx) : (sys c).out 5 0 = [(4, 0)] := rfl
theorem n6 (c : Ctx) (i : Nat) (m : Msg) : (sys c).node (6, i) m = .obj (beh c (.bin .sub 0) 6 i m) := rfl
theorem o6_0 (c : Ctx) : (sys c).out 6 0 = [(9, 0)] := rfl
theorem n7 (c : Ctx) (i : Nat) (m : Msg) : (sys c).node (7, i) m = .obj (beh c (.system) 7 i m) := rfl
theorem o7_0 (c : Ctx) : (sys c).out 7 0 = [(6, 0)] := rfl
theorem n8 (c : Ctx) (i : Nat) (m : Msg) : (sys c).node (8, i) m = .obj (beh c (.msg [.lit (.sym "currentTime")]) 8 i m) := rfl
theorem o8_0 (c : Ctx) : (sys c).out 8 0 = [(7, 0)] := rfl
theorem n9 (c : Ctx) (i : Nat) (m : Msg) : (sys c).node (9, i) m = .obj (beh c (.bin .div 0) 9 i m) := rfl
theorem o9_0 (c : Ctx) : (sys c).out 9 0 = [(3, 0)] := rfl
theorem n10 (c : Ctx) (i : Nat) (m : Msg) : (sys c).node (10, i) m = .fwd false ([((12, 0), m)] ++ ([((8, 0), m)] ++ ([]))) := rfl
theorem n11 (c : Ctx) (i : Nat) (m : Msg) : (sys c).node (11, i) m = .obj (beh c (.system) 11 i m) := rfl
theorem o11_0 (c : Ctx) : (sys c).out 11 0 = [(13, 0)] := rfl
theorem n12 (c : Ctx) (i : Nat) (m : Msg) : (sys c).node (12, i) m = .obj (beh c (.msg [.lit (.sym "samplerate")]) 12 i m) := rfl
theorem o12_0 (c : Ctx) : (sys c).out 12 0 = [(11, 0)] := rfl
theorem n13 (c : Ctx) (i : Nat) (m : Msg) : (sys c).node (13, i) m = .obj (beh c (.bink .div 1000) 13 i m) := rfl
theorem o13_0 (c : Ctx) : (sys c).out 13 0 = [(9, 1)] := rfl
theorem n14 (c : Ctx) (i : Nat) (m : Msg) : (sys c).node (14, i) m = .obj (beh c (.probe 0) 14 i m) := rfl
theorem n15 (c : Ctx) (i : Nat) (m : Msg) : (sys c).node (15, i) m = .obj (beh c (.none) 15 i m) := rfl
theorem o15_0 (c : Ctx) : (sys c).out 15 0 = [(0, 0)] := rfl
theorem n16 (c : Ctx) (i : Nat) (m : Msg) : (sys c).node (16, i) m = .obj (beh c (.none) 16 i m) := rfl
theorem o16_0 (c : Ctx) : (sys c).out 16 0 = [(0, 1)] := rfl

attribute [lib_timer] n0_0 n0_1 n3 n4 o4_0 n5 o5_0 n6 o6_0 n7 o7_0 n8 o8_0 n9 o9_0 n10 n11 o11_0 n12 o12_0 n13 o13_0 n14 n15 o15_0 n16 o16_0

end Verif.Lib.Timer
