import Verif.LibSim
/-!
The abstraction `[ctlout]`: transcription of hvcc/interpreters/pd2hv/libs/pd/ctlout.pd and of the library files it uses, made by
tools/pdlib.py.  Object `0` is the abstraction itself, its outlets are connected to `.probe`s.
-/
set_option linter.unusedVariables false
set_option linter.style.longLine false
set_option maxRecDepth 100000
namespace Verif.Lib.Ctlout
open Verif.Control (Dest Kind Cast Patch)

/-- the objects of hvcc/interpreters/pd2hv/libs/pd/ctlout.pd: kind, connections of each outlet, class -/
def nodes (a1 : ℚ) (a2 : ℚ) : List Node :=
  [⟨.graph [7, 13, 5], [], .none⟩,  -- 0: ctlout
   ⟨.obj, [[(6, 0)]], .pack [0, 0, 0]⟩,  -- 1: ctlout, object 0: pack f f f
   ⟨.graph [], [[(19, 0)]], .none⟩,  -- 2: ctlout, object 1: loadbang
   ⟨.recv, [[(4, 0)]], .none⟩,  -- 3: loadbang, object 0: r __hv_init \$1
   ⟨.outlet 2 0, [], .none⟩,  -- 4: loadbang, object 1: outlet
   ⟨.inlet, [[(8, 0)]], .none⟩,  -- 5: ctlout, object 2: inlet channel
   ⟨.send 1, [[]], .none⟩,  -- 6: ctlout, object 3: s __hv_ctlout @hv_param
   ⟨.inlet, [[(1, 0)]], .none⟩,  -- 7: ctlout, object 4: inlet value
   ⟨.graph [11, 12], [[(20, 0)]], .none⟩,  -- 8: ctlout, object 5: f \$2
   ⟨.obj, [[(10, 0)]], .var (.float a2)⟩,  -- 9: f, object 1: pd @hv_obj __var \$1
   ⟨.outlet 8 0, [], .none⟩,  -- 10: f, object 2: outlet
   ⟨.inlet, [[(9, 0)]], .none⟩,  -- 11: f, object 3: inlet -->
   ⟨.inlet, [[(9, 1)]], .none⟩,  -- 12: f, object 4: inlet -->
   ⟨.inlet, [[(14, 0)]], .none⟩,  -- 13: ctlout, object 6: inlet cc
   ⟨.graph [17, 18], [[(1, 1)]], .none⟩,  -- 14: ctlout, object 7: f \$1
   ⟨.obj, [[(16, 0)]], .var (.float a1)⟩,  -- 15: f, object 1: pd @hv_obj __var \$1
   ⟨.outlet 14 0, [], .none⟩,  -- 16: f, object 2: outlet
   ⟨.inlet, [[(15, 0)]], .none⟩,  -- 17: f, object 3: inlet -->
   ⟨.inlet, [[(15, 1)]], .none⟩,  -- 18: f, object 4: inlet -->
   ⟨.seq [some .bang, some .bang], [[(14, 0)], [(8, 0)]], .none⟩,  -- 19: ctlout, object 8: t b b
   ⟨.obj, [[(21, 0)]], .bink .sub 1⟩,  -- 20: ctlout, object 9: - 1
   ⟨.obj, [[(1, 2)]], .bink .max 0⟩,  -- 21: ctlout, object 10: max
   ⟨.obj, [[(0, 0)]], .none⟩,  -- 22: an object of the surrounding patch, connected to inlet 0
   ⟨.obj, [[(0, 1)]], .none⟩,  -- 23: an object of the surrounding patch, connected to inlet 1
   ⟨.obj, [[(0, 2)]], .none⟩,  -- 24: an object of the surrounding patch, connected to inlet 2
   ⟨.recv, [[(26, 0)]], .none⟩,  -- 25: from __hv_ctlout
   ⟨.obj, [], .probe 0⟩]  -- 26: what comes out of __hv_ctlout: number 0

/-- receivers by name, in the order of the file: 0 = __hv_init, 1 = __hv_ctlout -/
def recvs : List (List Nat) := [[3], [25]]

/-- priorities of receivers, PdReceiveObject.py:96-100 -/
def prio : Nat → Int
  | 3 => 999
  | 25 => -2
  | _ => 0

/-- the receivers in the order in which they fire -/
def order : List (List Nat) := [[3], [25]]

/-- the object connected to inlet `i` -/
def drv (i : Nat) : Nat := 22 + i

/-- the abstraction as it is (`Verif.Control`: C45, C35) -/
def mach (a1 : ℚ) (a2 : ℚ) (c : Ctx) : Mach := source c (nodes a1 a2) (recvsOf recvs) prio (recvsOf order)

/-- `M` is generated code -/
def Code (a1 : ℚ) (a2 : ℚ) (c : Ctx) (M : Mach) : Prop := Compiled c (nodes a1 a2) (recvsOf recvs) prio M

/-- what it means -/
def sys (a1 : ℚ) (a2 : ℚ) (c : Ctx) : Control.Sys St Msg := (mach a1 a2 c).sys

/-- kinds and connections -/
def shape : Shape :=
  [(.graph [7, 13, 5], []),
   (.obj, [[(6, 0)]]),
   (.graph [], [[(19, 0)]]),
   (.recv, [[(4, 0)]]),
   (.outlet 2 0, []),
   (.inlet, [[(8, 0)]]),
   (.send 1, [[]]),
   (.inlet, [[(1, 0)]]),
   (.graph [11, 12], [[(20, 0)]]),
   (.obj, [[(10, 0)]]),
   (.outlet 8 0, []),
   (.inlet, [[(9, 0)]]),
   (.inlet, [[(9, 1)]]),
   (.inlet, [[(14, 0)]]),
   (.graph [17, 18], [[(1, 1)]]),
   (.obj, [[(16, 0)]]),
   (.outlet 14 0, []),
   (.inlet, [[(15, 0)]]),
   (.inlet, [[(15, 1)]]),
   (.seq [some .bang, some .bang], [[(14, 0)], [(8, 0)]]),
   (.obj, [[(21, 0)]]),
   (.obj, [[(1, 2)]]),
   (.obj, [[(0, 0)]]),
   (.obj, [[(0, 1)]]),
   (.obj, [[(0, 2)]]),
   (.recv, [[(26, 0)]]),
   (.obj, [])]

theorem shape_eq (a1 : ℚ) (a2 : ℚ) : shapeOf (nodes a1 a2) = shape := rfl

theorem checked (a1 : ℚ) (a2 : ℚ) : check (shapeOf (nodes a1 a2)) recvs order prio [0, 0, 0, 0, 0, 0, 0, 0, 0, 0, 0, 0, 0, 0, 0, 0, 0, 0, 0, 1, 0, 0, 0, 0, 0, 0, 0] = true := by
  rw [shape_eq]
  decide +kernel

theorem classes (a1 : ℚ) (a2 : ℚ) : clsOK (nodes a1 a2) = true := rfl

theorem drv_valid (a1 : ℚ) (a2 : ℚ) {i : Nat} (h : i < 3) (m : Msg) : (Control.Src.outlet (drv i) 0 m).Valid (mkPatch (nodes a1 a2) (recvsOf recvs) prio) (nodes a1 a2).length := by
  have : i = 0 ∨ i = 1 ∨ i = 2 := by omega
  rcases this with rfl | rfl | rfl <;> exact ⟨Nat.le_of_ble_eq_true rfl, rfl, Nat.le_of_ble_eq_true rfl⟩

/-- messages for the inlets there are -/
def Inlet : Ev → Prop
  | .ext _ i _ => i < 3
  | .tick => True

theorem driven (a1 : ℚ) (a2 : ℚ) {e : Ev} (h : Inlet e) : Driven (nodes a1 a2) (recvsOf recvs) prio drv e := by
  cases e with
  | ext t i m => exact drv_valid a1 a2 h
  | tick => trivial

theorem to_code {c : Ctx} {a1 : ℚ} {a2 : ℚ} {M : Mach} (hM : Code a1 a2 c M) {tab : Nat → List ℚ} {Fits : Ev → Prop} (hf : ∀ e, Fits e → Inlet e) {σ : Type}
    {on : σ → Ev → σ} {x0 : σ} {Sim : σ → St → Prop}
    (h : Simulates (mach a1 a2 c) drv (start c (nodes a1 a2) tab) Fits on x0 Sim) :
    Simulates M drv (start c (nodes a1 a2) tab) Fits on x0 (fun x s => Sim x s ∧ GoodQ (nodes a1 a2) s) :=
  h.code (checked a1 a2) (classes a1 a2) hM fun e he => driven a1 a2 (hf e he)

/-- it compiles -/
theorem code_exists (a1 : ℚ) (a2 : ℚ) (c : Ctx) : ∃ M, Code a1 a2 c M := exists_compiled c (checked a1 a2) (f := 20) (by rw [shape_eq]; decide +kernel)

/-! one lemma per object, for rewriting -/

theorem n0_0 (a1 : ℚ) (a2 : ℚ) (c : Ctx) (m : Msg) : (sys a1 a2 c).node (0, 0) m = .fwd false [((1, 0), m)] := rfl
theorem n0_1 (a1 : ℚ) (a2 : ℚ) (c : Ctx) (m : Msg) : (sys a1 a2 c).node (0, 1) m = .fwd false [((14, 0), m)] := rfl
theorem n0_2 (a1 : ℚ) (a2 : ℚ) (c : Ctx) (m : Msg) : (sys a1 a2 c).node (0, 2) m = .fwd false [((8, 0), m)] := rfl
theorem n1 (a1 : ℚ) (a2 : ℚ) (c : Ctx) (i : Nat) (m : Msg) : (sys a1 a2 c).node (1, i) m = .obj (beh c (.pack [0, 0, 0]) 1 i m) := rfl
theorem o1_0 (a1 : ℚ) (a2 : ℚ) (c : Ctx) : (sys a1 a2 c).out 1 0 = [(6, 0)] := rfl
theorem n4 (a1 : ℚ) (a2 : ℚ) (c : Ctx) (i : Nat) (m : Msg) : (sys a1 a2 c).node (4, i) m = .fwd false [((19, 0), m)] := rfl
theorem n6 (a1 : ℚ) (a2 : ℚ) (c : Ctx) (i : Nat) (m : Msg) : (sys a1 a2 c).node (6, i) m = .fwd true [((26, 0), m)] := rfl
theorem n8_0 (a1 : ℚ) (a2 : ℚ) (c : Ctx) (m : Msg) : (sys a1 a2 c).node (8, 0) m = .fwd false [((9, 0), m)] := rfl
theorem n8_1 (a1 : ℚ) (a2 : ℚ) (c : Ctx) (m : Msg) : (sys a1 a2 c).node (8, 1) m = .fwd false [((9, 1), m)] := rfl
theorem n9 (a1 : ℚ) (a2 : ℚ) (c : Ctx) (i : Nat) (m : Msg) : (sys a1 a2 c).node (9, i) m = .obj (beh c (.var (.float a2)) 9 i m) := rfl
theorem o9_0 (a1 : ℚ) (a2 : ℚ) (c : Ctx) : (sys a1 a2 c).out 9 0 = [(10, 0)] := rfl
theorem n10 (a1 : ℚ) (a2 : ℚ) (c : Ctx) (i : Nat) (m : Msg) : (sys a1 a2 c).node (10, i) m = .fwd false [((20, 0), m)] := rfl
theorem n14_0 (a1 : ℚ) (a2 : ℚ) (c : Ctx) (m : Msg) : (sys a1 a2 c).node (14, 0) m = .fwd false [((15, 0), m)] := rfl
theorem n14_1 (a1 : ℚ) (a2 : ℚ) (c : Ctx) (m : Msg) : (sys a1 a2 c).node (14, 1) m = .fwd false [((15, 1), m)] := rfl
theorem n15 (a1 : ℚ) (a2 : ℚ) (c : Ctx) (i : Nat) (m : Msg) : (sys a1 a2 c).node (15, i) m = .obj (beh c (.var (.float a1)) 15 i m) := rfl
theorem o15_0 (a1 : ℚ) (a2 : ℚ) (c : Ctx) : (sys a1 a2 c).out 15 0 = [(16, 0)] := rfl
theorem n16 (a1 : ℚ) (a2 : ℚ) (c : Ctx) (i : Nat) (m : Msg) : (sys a1 a2 c).node (16, i) m = .fwd false [((1, 1), m)] := rfl
theorem n19 (a1 : ℚ) (a2 : ℚ) (c : Ctx) (i : Nat) (m : Msg) : (sys a1 a2 c).node (19, i) m = .fwd false (castTo .bang [(8, 0)] m ++ (castTo .bang [(14, 0)] m ++ ([]))) := rfl
theorem n20 (a1 : ℚ) (a2 : ℚ) (c : Ctx) (i : Nat) (m : Msg) : (sys a1 a2 c).node (20, i) m = .obj (beh c (.bink .sub 1) 20 i m) := rfl
theorem o20_0 (a1 : ℚ) (a2 : ℚ) (c : Ctx) : (sys a1 a2 c).out 20 0 = [(21, 0)] := rfl
theorem n21 (a1 : ℚ) (a2 : ℚ) (c : Ctx) (i : Nat) (m : Msg) : (sys a1 a2 c).node (21, i) m = .obj (beh c (.bink .max 0) 21 i m) := rfl
theorem o21_0 (a1 : ℚ) (a2 : ℚ) (c : Ctx) : (sys a1 a2 c).out 21 0 = [(1, 2)] := rfl
theorem n22 (a1 : ℚ) (a2 : ℚ) (c : Ctx) (i : Nat) (m : Msg) : (sys a1 a2 c).node (22, i) m = .obj (beh c (.none) 22 i m) := rfl
theorem o22_0 (a1 : ℚ) (a2 : ℚ) (c : Ctx) : (sys a1 a2 c).out 22 0 = [(0, 0)] := rfl
theorem n23 (a1 : ℚ) (a2 : ℚ) (c : Ctx) (i : Nat) (m : Msg) : (sys a1 a2 c).node (23, i) m = .obj (beh c (.none) 23 i m) := rfl
theorem o23_0 (a1 : ℚ) (a2 : ℚ) (c : Ctx) : (sys a1 a2 c).out 23 0 = [(0, 1)] := rfl
theorem n24 (a1 : ℚ) (a2 : ℚ) (c : Ctx) (i : Nat) (m : Msg) : (sys a1 a2 c).node (24, i) m = .obj (beh c (.none) 24 i m) := rfl
theorem o24_0 (a1 : ℚ) (a2 : ℚ) (c : Ctx) : (sys a1 a2 c).out 24 0 = [(0, 2)] := rfl
theorem n26 (a1 : ℚ) (a2 : ℚ) (c : Ctx) (i : Nat) (m : Msg) : (sys a1 a2 c).node (26, i) m = .obj (beh c (.probe 0) 26 i m) := rfl

attribute [lib_ctlout] n0_0 n0_1 n0_2 n1 o1_0 n4 n6 n8_0 n8_1 n9 o9_0 n10 n14_0 n14_1 n15 o15_0 n16 n19 n20 o20_0 n21 o21_0 n22 o22_0 n23 o23_0 n24 o24_0 n26

end Verif.Lib.Ctlout
