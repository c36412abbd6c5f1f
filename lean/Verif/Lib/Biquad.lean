import Verif.LibSim
/-!
The abstraction `[biquad~]`: transcription of hvcc/interpreters/pd2hv/libs/pd/biquad~.pd and of the library files it uses, made by
tools/pdlib.py.  Object `0` is the abstraction itself, its outlets are connected to `.probe`s.
-/
set_option linter.unusedVariables false
set_option linter.style.longLine false
set_option maxRecDepth 100000
namespace Verif.Lib.Biquad
open Verif.Control (Dest Kind Cast Patch)

/-- the objects of hvcc/interpreters/pd2hv/libs/pd/biquad~.pd: kind, connections of each outlet, class -/
def nodes (a1 : ℚ) (a2 : ℚ) (a3 : ℚ) (a4 : ℚ) (a5 : ℚ) : List Node :=
  [⟨.graph [15], [], .none⟩,  -- 0: biquad~
   ⟨.obj, [], .none⟩,  -- 1: biquad~, object 0: outlet~ (makes a signal)
   ⟨.obj, [[(20, 0)]], .bink .mul (-1)⟩,  -- 2: biquad~, object 1: * -1
   ⟨.obj, [[(21, 0)]], .bink .mul (-1)⟩,  -- 3: biquad~, object 2: * -1
   ⟨.obj, [], .none⟩,  -- 4: biquad~, object 4: pd @hv_obj biquad \$3 \$4 \$5 0 0 (makes a signal)
   ⟨.obj, [[(2, 0)], []], .slice 0 1⟩,  -- 5: biquad~, object 10: pd @hv_obj __slice 0 1
   ⟨.obj, [[(3, 0)], []], .slice 1 1⟩,  -- 6: biquad~, object 11: pd @hv_obj __slice 1 1
   ⟨.obj, [[(22, 0)], []], .slice 2 1⟩,  -- 7: biquad~, object 12: pd @hv_obj __slice 2 1
   ⟨.obj, [[(23, 0)], []], .slice 3 1⟩,  -- 8: biquad~, object 13: pd @hv_obj __slice 3 1
   ⟨.obj, [[(24, 0)], []], .slice 4 1⟩,  -- 9: biquad~, object 14: pd @hv_obj __slice 4 1
   ⟨.graph [], [[(13, 0), (14, 0)]], .none⟩,  -- 10: biquad~, object 15: loadbang
   ⟨.recv, [[(12, 0)]], .none⟩,  -- 11: loadbang, object 0: r __hv_init \$1
   ⟨.outlet 10 0, [], .none⟩,  -- 12: loadbang, object 1: outlet
   ⟨.obj, [[(2, 0)]], .var (.float a1)⟩,  -- 13: biquad~, object 17: pd @hv_obj __var \$1
   ⟨.obj, [[(3, 0)]], .var (.float a2)⟩,  -- 14: biquad~, object 18: pd @hv_obj __var \$2
   ⟨.inlet, [[(16, 0)]], .none⟩,  -- 15: biquad~, object 19: inlet~ -~>
   ⟨.graph [17], [[(5, 0), (6, 0), (7, 0), (8, 0), (9, 0)]], .none⟩,  -- 16: biquad~, object 20: pd to_control
   ⟨.inlet, [[(18, 0)]], .none⟩,  -- 17: biquad~, [pd to_control], object 0: inlet
   ⟨.outlet 16 0, [], .none⟩,  -- 18: biquad~, [pd to_control], object 1: outlet
   ⟨.obj, [[(0, 0)]], .none⟩,  -- 19: an object of the surrounding patch, connected to inlet 0
   ⟨.obj, [], .probe 0⟩,  -- 20: messages for biquad~, object 4: pd @hv_obj biquad \$3 \$4 \$5 0 0, inlet 4
   ⟨.obj, [], .probe 1⟩,  -- 21: messages for biquad~, object 4: pd @hv_obj biquad \$3 \$4 \$5 0 0, inlet 5
   ⟨.obj, [], .probe 2⟩,  -- 22: messages for biquad~, object 4: pd @hv_obj biquad \$3 \$4 \$5 0 0, inlet 1
   ⟨.obj, [], .probe 3⟩,  -- 23: messages for biquad~, object 4: pd @hv_obj biquad \$3 \$4 \$5 0 0, inlet 2
   ⟨.obj, [], .probe 4⟩]  -- 24: messages for biquad~, object 4: pd @hv_obj biquad \$3 \$4 \$5 0 0, inlet 3

/-- receivers by name, in the order of the file: 0 = __hv_init -/
def recvs : List (List Nat) := [[11]]

/-- priorities of receivers, PdReceiveObject.py:96-100 -/
def prio : Nat → Int
  | 11 => 999
  | _ => 0

/-- the receivers in the order in which they fire -/
def order : List (List Nat) := [[11]]

/-- the object connected to inlet `i` -/
def drv (i : Nat) : Nat := 19 + i

/-- the abstraction as it is (`Verif.Control`: C45, C35) -/
def mach (a1 : ℚ) (a2 : ℚ) (a3 : ℚ) (a4 : ℚ) (a5 : ℚ) (c : Ctx) : Mach := source c (nodes a1 a2 a3 a4 a5) (recvsOf recvs) prio (recvsOf order)

/-- `M` is generated code -/
def Code (a1 : ℚ) (a2 : ℚ) (a3 : ℚ) (a4 : ℚ) (a5 : ℚ) (c : Ctx) (M : Mach) : Prop := Compiled c (nodes a1 a2 a3 a4 a5) (recvsOf recvs) prio M

/-- what it means -/
def sys (a1 : ℚ) (a2 : ℚ) (a3 : ℚ) (a4 : ℚ) (a5 : ℚ) (c : Ctx) : Control.Sys St Msg := (mach a1 a2 a3 a4 a5 c).sys

/-- kinds and connections -/
def shape : Shape :=
  [(.graph [15], []),
   (.obj, []),
   (.obj, [[(20, 0)]]),
   (.obj, [[(21, 0)]]),
   (.obj, []),
   (.obj, [[(2, 0)], []]),
   (.obj, [[(3, 0)], []]),
   (.obj, [[(22, 0)], []]),
   (.obj, [[(23, 0)], []]),
   (.obj, [[(24, 0)], []]),
   (.graph [], [[(13, 0), (14, 0)]]),
   (.recv, [[(12, 0)]]),
   (.outlet 10 0, []),
   (.obj, [[(2, 0)]]),
   (.obj, [[(3, 0)]]),
   (.inlet, [[(16, 0)]]),
   (.graph [17], [[(5, 0), (6, 0), (7, 0), (8, 0), (9, 0)]]),
   (.inlet, [[(18, 0)]]),
   (.outlet 16 0, []),
   (.obj, [[(0, 0)]]),
   (.obj, []),
   (.obj, []),
   (.obj, []),
   (.obj, []),
   (.obj, [])]

theorem shape_eq (a1 : ℚ) (a2 : ℚ) (a3 : ℚ) (a4 : ℚ) (a5 : ℚ) : shapeOf (nodes a1 a2 a3 a4 a5) = shape := rfl

theorem checked (a1 : ℚ) (a2 : ℚ) (a3 : ℚ) (a4 : ℚ) (a5 : ℚ) : check (shapeOf (nodes a1 a2 a3 a4 a5)) recvs order prio [0, 0, 0, 0, 0, 0, 0, 0, 0, 0, 0, 0, 0, 0, 0, 0, 0, 0, 0, 0, 0, 0, 0, 0, 0] = true := by
  rw [shape_eq]
  decide +kernel

theorem classes (a1 : ℚ) (a2 : ℚ) (a3 : ℚ) (a4 : ℚ) (a5 : ℚ) : clsOK (nodes a1 a2 a3 a4 a5) = true := rfl

theorem drv_valid (a1 : ℚ) (a2 : ℚ) (a3 : ℚ) (a4 : ℚ) (a5 : ℚ) {i : Nat} (h : i < 1) (m : Msg) : (Control.Src.outlet (drv i) 0 m).Valid (mkPatch (nodes a1 a2 a3 a4 a5) (recvsOf recvs) prio) (nodes a1 a2 a3 a4 a5).length := by
  have : i = 0 := by omega
  rcases this with rfl <;> exact ⟨Nat.le_of_ble_eq_true rfl, rfl, Nat.le_of_ble_eq_true rfl⟩

/-- messages for the inlets there are -/
def Inlet : Ev → Prop
  | .ext _ i _ => i < 1
  | .tick => True

theorem driven (a1 : ℚ) (a2 : ℚ) (a3 : ℚ) (a4 : ℚ) (a5 : ℚ) {e : Ev} (h : Inlet e) : Driven (nodes a1 a2 a3 a4 a5) (recvsOf recvs) prio drv e := by
  cases e with
  | ext t i m => exact drv_valid a1 a2 a3 a4 a5 h
  | tick => trivial

theorem to_code {c : Ctx} {a1 : ℚ} {a2 : ℚ} {a3 : ℚ} {a4 : ℚ} {a5 : ℚ} {M : Mach} (hM : Code a1 a2 a3 a4 a5 c M) {tab : Nat → List ℚ} {Fits : Ev → Prop} (hf : ∀ e, Fits e → Inlet e) {σ : Type}
    {on : σ → Ev → σ} {x0 : σ} {Sim : σ → St → Prop}
    (h : Simulates (mach a1 a2 a3 a4 a5 c) drv (start c (nodes a1 a2 a3 a4 a5) tab) Fits on x0 Sim) :
    Simulates M drv (start c (nodes a1 a2 a3 a4 a5) tab) Fits on x0 (fun x s => Sim x s ∧ GoodQ (nodes a1 a2 a3 a4 a5) s) :=
  h.code (checked a1 a2 a3 a4 a5) (classes a1 a2 a3 a4 a5) hM fun e he => driven a1 a2 a3 a4 a5 (hf e he)

/-- it compiles -/
theorem code_exists (a1 : ℚ) (a2 : ℚ) (a3 : ℚ) (a4 : ℚ) (a5 : ℚ) (c : Ctx) : ∃ M, Code a1 a2 a3 a4 a5 c M := exists_compiled c (checked a1 a2 a3 a4 a5) (f := 20) (by rw [shape_eq]; decide +kernel)

/-! one lemma per object, for rewriting -/

theorem n0_0 (a1 : ℚ) (a2 : ℚ) (a3 : ℚ) (a4 : ℚ) (a5 : ℚ) (c : Ctx) (m : Msg) : (sys a1 a2 a3 a4 a5 c).node (0, 0) m = .fwd false [((16, 0), m)] := rfl
theorem n1 (a1 : ℚ) (a2 : ℚ) (a3 : ℚ) (a4 : ℚ) (a5 : ℚ) (c : Ctx) (i : Nat) (m : Msg) : (sys a1 a2 a3 a4 a5 c).node (1, i) m = .obj (beh c (.none) 1 i m) := rfl
theorem n2 (a1 : ℚ) (a2 : ℚ) (a3 : ℚ) (a4 : ℚ) (a5 : ℚ) (c : Ctx) (i : Nat) (m : Msg) : (sys a1 a2 a3 a4 a5 c).node (2, i) m = .obj (beh c (.bink .mul (-1)) 2 i m) := rfl
theorem o2_0 (a1 : ℚ) (a2 : ℚ) (a3 : ℚ) (a4 : ℚ) (a5 : ℚ) (c : Ctx) : (sys a1 a2 a3 a4 a5 c).out 2 0 = [(20, 0)] := rfl
theorem n3 (a1 : ℚ) (a2 : ℚ) (a3 : ℚ) (a4 : ℚ) (a5 : ℚ) (c : Ctx) (i : Nat) (m : Msg) : (sys a1 a2 a3 a4 a5 c).node (3, i) m = .obj (beh c (.bink .mul (-1)) 3 i m) := rfl
theorem o3_0 (a1 : ℚ) (a2 : ℚ) (a3 : ℚ) (a4 : ℚ) (a5 : ℚ) (c : Ctx) : (sys a1 a2 a3 a4 a5 c).out 3 0 = [(21, 0)] := rfl
theorem n4 (a1 : ℚ) (a2 : ℚ) (a3 : ℚ) (a4 : ℚ) (a5 : ℚ) (c : Ctx) (i : Nat) (m : Msg) : (sys a1 a2 a3 a4 a5 c).node (4, i) m = .obj (beh c (.none) 4 i m) := rfl
theorem n5 (a1 : ℚ) (a2 : ℚ) (a3 : ℚ) (a4 : ℚ) (a5 : ℚ) (c : Ctx) (i : Nat) (m : Msg) : (sys a1 a2 a3 a4 a5 c).node (5, i) m = .obj (beh c (.slice 0 1) 5 i m) := rfl
theorem o5_0 (a1 : ℚ) (a2 : ℚ) (a3 : ℚ) (a4 : ℚ) (a5 : ℚ) (c : Ctx) : (sys a1 a2 a3 a4 a5 c).out 5 0 = [(2, 0)] := rfl
theorem o5_1 (a1 : ℚ) (a2 : ℚ) (a3 : ℚ) (a4 : ℚ) (a5 : ℚ) (c : Ctx) : (sys a1 a2 a3 a4 a5 c).out 5 1 = [] := rfl
theorem n6 (a1 : ℚ) (a2 : ℚ) (a3 : ℚ) (a4 : ℚ) (a5 : ℚ) (c : Ctx) (i : Nat) (m : Msg) : (sys a1 a2 a3 a4 a5 c).node (6, i) m = .obj (beh c (.slice 1 1) 6 i m) := rfl
theorem o6_0 (a1 : ℚ) (a2 : ℚ) (a3 : ℚ) (a4 : ℚ) (a5 : ℚ) (c : Ctx) : (sys a1 a2 a3 a4 a5 c).out 6 0 = [(3, 0)] := rfl
theorem o6_1 (a1 : ℚ) (a2 : ℚ) (a3 : ℚ) (a4 : ℚ) (a5 : ℚ) (c : Ctx) : (sys a1 a2 a3 a4 a5 c).out 6 1 = [] := rfl
theorem n7 (a1 : ℚ) (a2 : ℚ) (a3 : ℚ) (a4 : ℚ) (a5 : ℚ) (c : Ctx) (i : Nat) (m : Msg) : (sys a1 a2 a3 a4 a5 c).node (7, i) m = .obj (beh c (.slice 2 1) 7 i m) := rfl
theorem o7_0 (a1 : ℚ) (a2 : ℚ) (a3 : ℚ) (a4 : ℚ) (a5 : ℚ) (c : Ctx) : (sys a1 a2 a3 a4 a5 c).out 7 0 = [(22, 0)] := rfl
theorem o7_1 (a1 : ℚ) (a2 : ℚ) (a3 : ℚ) (a4 : ℚ) (a5 : ℚ) (c : Ctx) : (sys a1 a2 a3 a4 a5 c).out 7 1 = [] := rfl
theorem n8 (a1 : ℚ) (a2 : ℚ) (a3 : ℚ) (a4 : ℚ) (a5 : ℚ) (c : Ctx) (i : Nat) (m : Msg) : (sys a1 a2 a3 a4 a5 c).node (8, i) m = .obj (beh c (.slice 3 1) 8 i m) := rfl
theorem o8_0 (a1 : ℚ) (a2 : ℚ) (a3 : ℚ) (a4 : ℚ) (a5 : ℚ) (c : Ctx) : (sys a1 a2 a3 a4 a5 c).out 8 0 = [(23, 0)] := rfl
theorem o8_1 (a1 : ℚ) (a2 : ℚ) (a3 : ℚ) (a4 : ℚ) (a5 : ℚ) (c : Ctx) : (sys a1 a2 a3 a4 a5 c).out 8 1 = [] := rfl
theorem n9 (a1 : ℚ) (a2 : ℚ) (a3 : ℚ) (a4 : ℚ) (a5 : ℚ) (c : Ctx) (i : Nat) (m : Msg) : (sys a1 a2 a3 a4 a5 c).node (9, i) m = .obj (beh c (.slice 4 1) 9 i m) := rfl
theorem o9_0 (a1 : ℚ) (a2 : ℚ) (a3 : ℚ) (a4 : ℚ) (a5 : ℚ) (c : Ctx) : (sys a1 a2 a3 a4 a5 c).out 9 0 = [(24, 0)] := rfl
theorem o9_1 (a1 : ℚ) (a2 : ℚ) (a3 : ℚ) (a4 : ℚ) (a5 : ℚ) (c : Ctx) : (sys a1 a2 a3 a4 a5 c).out 9 1 = [] := rfl
theorem n12 (a1 : ℚ) (a2 : ℚ) (a3 : ℚ) (a4 : ℚ) (a5 : ℚ) (c : Ctx) (i : Nat) (m : Msg) : (sys a1 a2 a3 a4 a5 c).node (12, i) m = .fwd false [((13, 0), m), ((14, 0), m)] := rfl
theorem n13 (a1 : ℚ) (a2 : ℚ) (a3 : ℚ) (a4 : ℚ) (a5 : ℚ) (c : Ctx) (i : Nat) (m : Msg) : (sys a1 a2 a3 a4 a5 c).node (13, i) m = .obj (beh c (.var (.float a1)) 13 i m) := rfl
theorem o13_0 (a1 : ℚ) (a2 : ℚ) (a3 : ℚ) (a4 : ℚ) (a5 : ℚ) (c : Ctx) : (sys a1 a2 a3 a4 a5 c).out 13 0 = [(2, 0)] := rfl
theorem n14 (a1 : ℚ) (a2 : ℚ) (a3 : ℚ) (a4 : ℚ) (a5 : ℚ) (c : Ctx) (i : Nat) (m : Msg) : (sys a1 a2 a3 a4 a5 c).node (14, i) m = .obj (beh c (.var (.float a2)) 14 i m) := rfl
theorem o14_0 (a1 : ℚ) (a2 : ℚ) (a3 : ℚ) (a4 : ℚ) (a5 : ℚ) (c : Ctx) : (sys a1 a2 a3 a4 a5 c).out 14 0 = [(3, 0)] := rfl
theorem n16_0 (a1 : ℚ) (a2 : ℚ) (a3 : ℚ) (a4 : ℚ) (a5 : ℚ) (c : Ctx) (m : Msg) : (sys a1 a2 a3 a4 a5 c).node (16, 0) m = .fwd false [((18, 0), m)] := rfl
theorem n18 (a1 : ℚ) (a2 : ℚ) (a3 : ℚ) (a4 : ℚ) (a5 : ℚ) (c : Ctx) (i : Nat) (m : Msg) : (sys a1 a2 a3 a4 a5 c).node (18, i) m = .fwd false [((5, 0), m), ((6, 0), m), ((7, 0), m), ((8, 0), m), ((9, 0), m)] := rfl
theorem n19 (a1 : ℚ) (a2 : ℚ) (a3 : ℚ) (a4 : ℚ) (a5 : ℚ) (c : Ctx) (i : Nat) (m : Msg) : (sys a1 a2 a3 a4 a5 c).node (19, i) m = .obj (beh c (.none) 19 i m) := rfl
theorem o19_0 (a1 : ℚ) (a2 : ℚ) (a3 : ℚ) (a4 : ℚ) (a5 : ℚ) (c : Ctx) : (sys a1 a2 a3 a4 a5 c).out 19 0 = [(0, 0)] := rfl
theorem n20 (a1 : ℚ) (a2 : ℚ) (a3 : ℚ) (a4 : ℚ) (a5 : ℚ) (c : Ctx) (i : Nat) (m : Msg) : (sys a1 a2 a3 a4 a5 c).node (20, i) m = .obj (beh c (.probe 0) 20 i m) := rfl
theorem n21 (a1 : ℚ) (a2 : ℚ) (a3 : ℚ) (a4 : ℚ) (a5 : ℚ) (c : Ctx) (i : Nat) (m : Msg) : (sys a1 a2 a3 a4 a5 c).node (21, i) m = .obj (beh c (.probe 1) 21 i m) := rfl
theorem n22 (a1 : ℚ) (a2 : ℚ) (a3 : ℚ) (a4 : ℚ) (a5 : ℚ) (c : Ctx) (i : Nat) (m : Msg) : (sys a1 a2 a3 a4 a5 c).node (22, i) m = .obj (beh c (.probe 2) 22 i m) := rfl
theorem n23 (a1 : ℚ) (a2 : ℚ) (a3 : ℚ) (a4 : ℚ) (a5 : ℚ) (c : Ctx) (i : Nat) (m : Msg) : (sys a1 a2 a3 a4 a5 c).node (23, i) m = .obj (beh c (.probe 3) 23 i m) := rfl
theorem n24 (a1 : ℚ) (a2 : ℚ) (a3 : ℚ) (a4 : ℚ) (a5 : ℚ) (c : Ctx) (i : Nat) (m : Msg) : (sys a1 a2 a3 a4 a5 c).node (24, i) m = .obj (beh c (.probe 4) 24 i m) := rfl

attribute [lib_biquad] n0_0 n1 n2 o2_0 n3 o3_0 n4 n5 o5_0 o5_1 n6 o6_0 o6_1 n7 o7_0 o7_1 n8 o8_0 o8_1 n9 o9_0 o9_1 n12 n13 o13_0 n14 o14_0 n16_0 n18 n19 o19_0 n20 n21 n22 n23 n24

end Verif.Lib.Biquad
