import Verif.LibSim
/-!
The abstraction `[pgmout]`: transcription of hvcc/interpreters/pd2hv/libs/pd/pgmout.pd and of the library files it uses, made by
tools/pdlib.py.  Object `0` is the abstraction itself, its outlets are connected to `.probe`s.
-/
set_option linter.unusedVariables false
set_option linter.style.longLine false
set_option maxRecDepth 100000
namespace Verif.Lib.Pgmout
open Verif.Control (Dest Kind Cast Patch)

/-- the objects of hvcc/interpreters/pd2hv/libs/pd/pgmout.pd: kind, connections of each outlet, class -/
def nodes (a1 : ℚ) : List Node :=
  [⟨.graph [12, 3], [], .none⟩,  -- 0: pgmout
   ⟨.send 1, [[]], .none⟩,  -- 1: pgmout, object 0: s __hv_pgmout @hv_param
   ⟨.obj, [[(1, 0)]], .pack [0, 0]⟩,  -- 2: pgmout, object 1: pack f f
   ⟨.inlet, [[(4, 0)]], .none⟩,  -- 3: pgmout, object 2: inlet channel
   ⟨.graph [7, 8], [[(13, 0)]], .none⟩,  -- 4: pgmout, object 3: f \$1
   ⟨.obj, [[(6, 0)]], .var (.float a1)⟩,  -- 5: f, object 1: pd @hv_obj __var \$1
   ⟨.outlet 4 0, [], .none⟩,  -- 6: f, object 2: outlet
   ⟨.inlet, [[(5, 0)]], .none⟩,  -- 7: f, object 3: inlet -->
   ⟨.inlet, [[(5, 1)]], .none⟩,  -- 8: f, object 4: inlet -->
   ⟨.graph [], [[(4, 0)]], .none⟩,  -- 9: pgmout, object 4: loadbang
   ⟨.recv, [[(11, 0)]], .none⟩,  -- 10: loadbang, object 0: r __hv_init \$1
   ⟨.outlet 9 0, [], .none⟩,  -- 11: loadbang, object 1: outlet
   ⟨.inlet, [[(15, 0)]], .none⟩,  -- 12: pgmout, object 5: inlet program
   ⟨.obj, [[(14, 0)]], .bink .sub 1⟩,  -- 13: pgmout, object 6: - 1
   ⟨.obj, [[(2, 1)]], .bink .max 0⟩,  -- 14: pgmout, object 7: max
   ⟨.obj, [[(16, 0)]], .bink .sub 1⟩,  -- 15: pgmout, object 8: - 1
   ⟨.obj, [[(2, 0)]], .bink .max 0⟩,  -- 16: pgmout, object 9: max
   ⟨.obj, [[(0, 0)]], .none⟩,  -- 17: an object of the surrounding patch, connected to inlet 0
   ⟨.obj, [[(0, 1)]], .none⟩,  -- 18: an object of the surrounding patch, connected to inlet 1
   ⟨.recv, [[(20, 0)]], .none⟩,  -- 19: from __hv_pgmout
   ⟨.obj, [], .probe 0⟩]  -- 20: what comes out of __hv_pgmout: number 0

/-- receivers by name, in the order of the file: 0 = __hv_init, 1 = __hv_pgmout -/
def recvs : List (List Nat) := [[10], [19]]

/-- priorities of receivers, PdReceiveObject.py:96-100 -/
def prio : Nat → Int
  | 10 => 999
  | 19 => -2
  | _ => 0

/-- the receivers in the order in which they fire -/
def order : List (List Nat) := [[10], [19]]

/-- the object connected to inlet `i` -/
def drv (i : Nat) : Nat := 17 + i

/-- the abstraction as it is (`Verif.Control`: C45, C35) -/
def mach (a1 : ℚ) (c : Ctx) : Mach := source c (nodes a1) (recvsOf recvs) prio (recvsOf order)

/-- `M` is generated code -/
def Code (a1 : ℚ) (c : Ctx) (M : Mach) : Prop := Compiled c (nodes a1) (recvsOf recvs) prio M

/-- what it means -/
def sys (a1 : ℚ) (c : Ctx) : Control.Sys St Msg := (mach a1 c).sys

/-- kinds and connections -/
def shape : Shape :=
  [(.graph [12, 3], []),
   (.send 1, [[]]),
   (.obj, [[(1, 0)]]),
   (.inlet, [[(4, 0)]]),
   (.graph [7, 8], [[(13, 0)]]),
   (.obj, [[(6, 0)]]),
   (.outlet 4 0, []),
   (.inlet, [[(5, 0)]]),
   (.inlet, [[(5, 1)]]),
   (.graph [], [[(4, 0)]]),
   (.recv, [[(11, 0)]]),
   (.outlet 9 0, []),
   (.inlet, [[(15, 0)]]),
   (.obj, [[(14, 0)]]),
   (.obj, [[(2, 1)]]),
   (.obj, [[(16, 0)]]),
   (.obj, [[(2, 0)]]),
   (.obj, [[(0, 0)]]),
   (.obj, [[(0, 1)]]),
   (.recv, [[(20, 0)]]),
   (.obj, [])]

theorem shape_eq (a1 : ℚ) : shapeOf (nodes a1) = shape := rfl

theorem checked (a1 : ℚ) : check (shapeOf (nodes a1)) recvs order prio [0, 0, 0, 0, 0, 0, 0, 0, 0, 0, 0, 0, 0, 0, 0, 0, 0, 0, 0, 0, 0] = true := by
  rw [shape_eq]
  decide +kernel

theorem classes (a1 : ℚ) : clsOK (nodes a1) = true := rfl

theorem drv_valid (a1 : ℚ) {i : Nat} (h : i < 2) (m : Msg) : (Control.Src.outlet (drv i) 0 m).Valid (mkPatch (nodes a1) (recvsOf recvs) prio) (nodes a1).length := by
  have : i = 0 ∨ i = 1 := by omega
  rcases this with rfl | rfl <;> exact ⟨Nat.le_of_ble_eq_true rfl, rfl, Nat.le_of_ble_eq_true rfl⟩

/-- messages for the inlets there are -/
def Inlet : Ev → Prop
  | .ext _ i _ => i < 2
  | .tick => True

theorem driven (a1 : ℚ) {e : Ev} (h : Inlet e) : Driven (nodes a1) (recvsOf recvs) prio drv e := by
  cases e with
  | ext t i m => exact drv_valid a1 h
  | tick => trivial

theorem to_code {c : Ctx} {a1 : ℚ} {M : Mach} (hM : Code a1 c M) {tab : Nat → List ℚ} {Fits : Ev → Prop} (hf : ∀ e, Fits e → Inlet e) {σ : Type}
    {on : σ → Ev → σ} {x0 : σ} {Sim : σ → St → Prop}
    (h : Simulates (mach a1 c) drv (start c (nodes a1) tab) Fits on x0 Sim) :
    Simulates M drv (start c (nodes a1) tab) Fits on x0 (fun x s => Sim x s ∧ GoodQ (nodes a1) s) :=
  h.code (checked a1) (classes a1) hM fun e he => driven a1 (hf e he)

/-- it compiles -/
theorem code_exists (a1 : ℚ) (c : Ctx) : ∃ M, Code a1 c M := exists_compiled c (checked a1) (f := 20) (by rw [shape_eq]; decide +kernel)

/-! one lemma per object, for rewriting -/

theorem n0_0 (a1 : ℚ) (c : Ctx) (m : Msg) : (sys a1 c).node (0, 0) m = .fwd false [((15, 0), m)] := rfl
theorem n0_1 (a1 : ℚ) (c : Ctx) (m : Msg) : (sys a1 c).node (0, 1) m = .fwd false [((4, 0), m)] := rfl
theorem n1 (a1 : ℚ) (c : Ctx) (i : Nat) (m : Msg) : (sys a1 c).node (1, i) m = .fwd true [((20, 0), m)] := rfl
theorem n2 (a1 : ℚ) (c : Ctx) (i : Nat) (m : Msg) : (sys a1 c).node (2, i) m = .obj (beh c (.pack [0, 0]) 2 i m) := rfl
theorem o2_0 (a1 : ℚ) (c : Ctx) : (sys a1 c).out 2 0 = [(1, 0)] := rfl
theorem n4_0 (a1 : ℚ) (c : Ctx) (m : Msg) : (sys a1 c).node (4, 0) m = .fwd false [((5, 0), m)] := rfl
theorem n4_1 (a1 : ℚ) (c : Ctx) (m : Msg) : (sys a1 c).node (4, 1) m = .fwd false [((5, 1), m)] := rfl
theorem n5 (a1 : ℚ) (c : Ctx) (i : Nat) (m : Msg) : (sys a1 c).node (5, i) m = .obj (beh c (.var (.float a1)) 5 i m) := rfl
theorem o5_0 (a1 : ℚ) (c : Ctx) : (sys a1 c).out 5 0 = [(6, 0)] := rfl
theorem n6 (a1 : ℚ) (c : Ctx) (i : Nat) (m : Msg) : (sys a1 c).node (6, i) m = .fwd false [((13, 0), m)] := rfl
theorem n11 (a1 : ℚ) (c : Ctx) (i : Nat) (m : Msg) : (sys a1 c).node (11, i) m = .fwd false [((4, 0), m)] := rfl
theorem n13 (a1 : ℚ) (c : Ctx) (i : Nat) (m : Msg) : (sys a1 c).node (13, i) m = .obj (beh c (.bink .sub 1) 13 i m) := rfl
theorem o13_0 (a1 : ℚ) (c : Ctx) : (sys a1 c).out 13 0 = [(14, 0)] := rfl
theorem n14 (a1 : ℚ) (c : Ctx) (i : Nat) (m : Msg) : (sys a1 c).node (14, i) m = .obj (beh c (.bink .max 0) 14 i m) := rfl
theorem o14_0 (a1 : ℚ) (c : Ctx) : (sys a1 c).out 14 0 = [(2, 1)] := rfl
theorem n15 (a1 : ℚ) (c : Ctx) (i : Nat) (m : Msg) : (sys a1 c).node (15, i) m = .obj (beh c (.bink .sub 1) 15 i m) := rfl
theorem o15_0 (a1 : ℚ) (c : Ctx) : (sys a1 c).out 15 0 = [(16, 0)] := rfl
theorem n16 (a1 : ℚ) (c : Ctx) (i : Nat) (m : Msg) : (sys a1 c).node (16, i) m = .obj (beh c (.bink .max 0) 16 i m) := rfl
theorem o16_0 (a1 : ℚ) (c : Ctx) : (sys a1 c).out 16 0 = [(2, 0)] := rfl
theorem n17 (a1 : ℚ) (c : Ctx) (i : Nat) (m : Msg) : (sys a1 c).node (17, i) m = .obj (beh c (.none) 17 i m) := rfl
theorem o17_0 (a1 : ℚ) (c : Ctx) : (sys a1 c).out 17 0 = [(0, 0)] := rfl
theorem n18 (a1 : ℚ) (c : Ctx) (i : Nat) (m : Msg) : (sys a1 c).node (18, i) m = .obj (beh c (.none) 18 i m) := rfl
theorem o18_0 (a1 : ℚ) (c : Ctx) : (sys a1 c).out 18 0 = [(0, 1)] := rfl
theorem n20 (a1 : ℚ) (c : Ctx) (i : Nat) (m : Msg) : (sys a1 c).node (20, i) m = .obj (beh c (.probe 0) 20 i m) := rfl

attribute [lib_pgmout] n0_0 n0_1 n1 n2 o2_0 n4_0 n4_1 n5 o5_0 n6 n11 n13 o13_0 n14 o14_0 n15 o15_0 n16 o16_0 n17 o17_0 n18 o18_0 n20

end Verif.Lib.Pgmout
