import Verif.LibSim
/-!
The abstraction `[vcf~]`: transcription of hvcc/interpreters/pd2hv/libs/pd/vcf~.pd and of the library files it uses, made by
tools/pdlib.py.  Object `0` is the abstraction itself, its outlets are connected to `.probe`s.
-/
set_option linter.unusedVariables false
set_option linter.style.longLine false
set_option maxRecDepth 100000
namespace Verif.Lib.Vcf
open Verif.Control (Dest Kind Cast Patch)

/-- the objects of hvcc/interpreters/pd2hv/libs/pd/vcf~.pd: kind, connections of each outlet, class -/
def nodes (a1 : ℚ) : List Node :=
  [⟨.graph [40, 1, 2], [], .none⟩,  -- 0: vcf~
   ⟨.inlet, [[]], .none⟩,  -- 1: vcf~, object 0: inlet~ f
   ⟨.inlet, [[(31, 0)]], .none⟩,  -- 2: vcf~, object 1: inlet q
   ⟨.obj, [[(4, 0)]], .msg [.lit (.float 1), .arg 0]⟩,  -- 3: vcf~, object 2: 1 \$1
   ⟨.obj, [[(42, 0)]], .bink .div 0⟩,  -- 4: vcf~, object 3: /
   ⟨.obj, [[(6, 0)]], .bink .add 2⟩,  -- 5: vcf~, object 5: + 2
   ⟨.obj, [[(7, 0)]], .msg [.lit (.float 2), .arg 0]⟩,  -- 6: vcf~, object 6: 2 \$1
   ⟨.obj, [[(8, 0)]], .bink .div 0⟩,  -- 7: vcf~, object 7: /
   ⟨.obj, [[(9, 0)]], .msg [.lit (.float 2), .arg 0]⟩,  -- 8: vcf~, object 8: 2 \$1
   ⟨.obj, [[(58, 0)]], .bink .sub 0⟩,  -- 9: vcf~, object 9: -
   ⟨.graph [11], [[(22, 0)]], .none⟩,  -- 10: vcf~, object 11: samplerate~
   ⟨.inlet, [[(13, 0)]], .none⟩,  -- 11: samplerate~, object 0: inlet
   ⟨.outlet 10 0, [], .none⟩,  -- 12: samplerate~, object 1: outlet
   ⟨.obj, [[(14, 0)]], .msg [.lit (.sym "samplerate")]⟩,  -- 13: samplerate~, object 2: samplerate
   ⟨.obj, [[(12, 0)]], .system⟩,  -- 14: samplerate~, object 3: pd @hv_obj system
   ⟨.obj, [[(59, 0)]], .bink .div 0⟩,  -- 15: vcf~, object 12: /
   ⟨.obj, [], .none⟩,  -- 16: vcf~, object 13: *~ (makes a signal)
   ⟨.obj, [], .none⟩,  -- 17: vcf~, object 14: *~ (makes a signal)
   ⟨.obj, [], .none⟩,  -- 18: vcf~, object 15: sig~ 1 (makes a signal)
   ⟨.obj, [], .none⟩,  -- 19: vcf~, object 16: -~ (makes a signal)
   ⟨.obj, [], .none⟩,  -- 20: vcf~, object 17: outlet~ (makes a signal)
   ⟨.obj, [], .none⟩,  -- 21: vcf~, object 18: outlet~ (makes a signal)
   ⟨.obj, [[(15, 0)]], .msg [.lit (.float (6.28319)), .arg 0]⟩,  -- 22: vcf~, object 19: 6.28319 \$1
   ⟨.obj, [], .none⟩,  -- 23: vcf~, object 20: *~ (makes a signal)
   ⟨.obj, [], .none⟩,  -- 24: vcf~, object 21: *~ (makes a signal)
   ⟨.obj, [], .none⟩,  -- 25: vcf~, object 22: *~ (makes a signal)
   ⟨.obj, [], .none⟩,  -- 26: vcf~, object 23: *~ (makes a signal)
   ⟨.obj, [], .none⟩,  -- 27: vcf~, object 24: *~ (makes a signal)
   ⟨.obj, [], .none⟩,  -- 28: vcf~, object 25: -~ (makes a signal)
   ⟨.obj, [], .none⟩,  -- 29: vcf~, object 26: sqrt~ (makes a signal)
   ⟨.obj, [], .none⟩,  -- 30: vcf~, object 28: pd @hv_obj __cpole~f (makes a signal)
   ⟨.graph [34, 35], [[(46, 0)]], .none⟩,  -- 31: vcf~, object 32: f \$1
   ⟨.obj, [[(33, 0)]], .var (.float a1)⟩,  -- 32: f, object 1: pd @hv_obj __var \$1
   ⟨.outlet 31 0, [], .none⟩,  -- 33: f, object 2: outlet
   ⟨.inlet, [[(32, 0)]], .none⟩,  -- 34: f, object 3: inlet -->
   ⟨.inlet, [[(32, 1)]], .none⟩,  -- 35: f, object 4: inlet -->
   ⟨.graph [], [[(43, 0)]], .none⟩,  -- 36: vcf~, object 33: loadbang
   ⟨.recv, [[(38, 0)]], .none⟩,  -- 37: loadbang, object 0: r __hv_init \$1
   ⟨.outlet 36 0, [], .none⟩,  -- 38: loadbang, object 1: outlet
   ⟨.obj, [], .none⟩,  -- 39: vcf~, object 34: pd @hv_obj __cos~f (makes a signal)
   ⟨.inlet, [[]], .none⟩,  -- 40: vcf~, object 35: inlet~ in
   ⟨.obj, [[(5, 0)]], .msg [.lit (.float 0)]⟩,  -- 41: vcf~, object 36: 0
   ⟨.seq [none], [[(60, 0)]], .none⟩,  -- 42: vcf~, object 37: t a
   ⟨.seq [none, none], [[(31, 0)], [(10, 0)]], .none⟩,  -- 43: vcf~, object 38: t a a
   ⟨.obj, [], .none⟩,  -- 44: vcf~, object 39: min~ (makes a signal)
   ⟨.obj, [[(61, 0), (60, 0)]], .msg [.lit (.float (-1))]⟩,  -- 45: vcf~, object 40: -1
   ⟨.graph [47, 48], [[(41, 0), (45, 0)], [(3, 0), (5, 0), (61, 0)]], .none⟩,  -- 46: vcf~, object 42: moses 1e-05
   ⟨.inlet, [[(52, 0)]], .none⟩,  -- 47: moses, object 0: inlet
   ⟨.inlet, [[(51, 1)]], .none⟩,  -- 48: moses, object 1: inlet
   ⟨.outlet 46 0, [], .none⟩,  -- 49: moses, object 2: outlet
   ⟨.outlet 46 1, [], .none⟩,  -- 50: moses, object 3: outlet
   ⟨.obj, [[(53, 1)]], .bin .ge (1e-05)⟩,  -- 51: moses, object 4: >= \$1
   ⟨.seq [none, none], [[(53, 0)], [(51, 0)]], .none⟩,  -- 52: moses, object 6: t a a
   ⟨.obj, [[(49, 0)], [(50, 0)]], .ite 0⟩,  -- 53: moses, object 7: pd @hv_obj __if
   ⟨.obj, [], .none⟩,  -- 54: vcf~, object 45: max~ 1e-05 (makes a signal)
   ⟨.obj, [[(0, 0)]], .none⟩,  -- 55: an object of the surrounding patch, connected to inlet 0
   ⟨.obj, [[(0, 1)]], .none⟩,  -- 56: an object of the surrounding patch, connected to inlet 1
   ⟨.obj, [[(0, 2)]], .none⟩,  -- 57: an object of the surrounding patch, connected to inlet 2
   ⟨.obj, [], .probe 0⟩,  -- 58: messages for vcf~, object 21: *~, inlet 1
   ⟨.obj, [], .probe 1⟩,  -- 59: messages for vcf~, object 13: *~, inlet 1
   ⟨.obj, [], .probe 2⟩,  -- 60: messages for vcf~, object 14: *~, inlet 1
   ⟨.obj, [], .probe 3⟩]  -- 61: messages for vcf~, object 39: min~, inlet 1

/-- receivers by name, in the order of the file: 0 = __hv_init -/
def recvs : List (List Nat) := [[37]]

/-- priorities of receivers, PdReceiveObject.py:96-100 -/
def prio : Nat → Int
  | 37 => 999
  | _ => 0

/-- the receivers in the order in which they fire -/
def order : List (List Nat) := [[37]]

/-- the object connected to inlet `i` -/
def drv (i : Nat) : Nat := 55 + i

/-- the abstraction as it is (`Verif.Control`: C45, C35) -/
def mach (a1 : ℚ) (c : Ctx) : Mach := source c (nodes a1) (recvsOf recvs) prio (recvsOf order)

/-- `M` is generated code -/
def Code (a1 : ℚ) (c : Ctx) (M : Mach) : Prop := Compiled c (nodes a1) (recvsOf recvs) prio M

/-- what it means -/
def sys (a1 : ℚ) (c : Ctx) : Control.Sys St Msg := (mach a1 c).sys

/-- kinds and connections -/
def shape : Shape :=
  [(.graph [40, 1, 2], []),
   (.inlet, [[]]),
   (.inlet, [[(31, 0)]]),
   (.obj, [[(4, 0)]]),
   (.obj, [[(42, 0)]]),
   (.obj, [[(6, 0)]]),
   (.obj, [[(7, 0)]]),
   (.obj, [[(8, 0)]]),
   (.obj, [[(9, 0)]]),
   (.obj, [[(58, 0)]]),
   (.graph [11], [[(22, 0)]]),
   (.inlet, [[(13, 0)]]),
   (.outlet 10 0, []),
   (.obj, [[(14, 0)]]),
   (.obj, [[(12, 0)]]),
   (.obj, [[(59, 0)]]),
   (.obj, []),
   (.obj, []),
   (.obj, []),
   (.obj, []),
   (.obj, []),
   (.obj, []),
   (.obj, [[(15, 0)]]),
   (.obj, []),
   (.obj, []),
   (.obj, []),
   (.obj, []),
   (.obj, []),
   (.obj, []),
   (.obj, []),
   (.obj, []),
   (.graph [34, 35], [[(46, 0)]]),
   (.obj, [[(33, 0)]]),
   (.outlet 31 0, []),
   (.inlet, [[(32, 0)]]),
   (.inlet, [[(32, 1)]]),
   (.graph [], [[(43, 0)]]),
   (.recv, [[(38, 0)]]),
   (.outlet 36 0, []),
   (.obj, []),
   (.inlet, [[]]),
   (.obj, [[(5, 0)]]),
   (.seq [none], [[(60, 0)]]),
   (.seq [none, none], [[(31, 0)], [(10, 0)]]),
   (.obj, []),
   (.obj, [[(61, 0), (60, 0)]]),
   (.graph [47, 48], [[(41, 0), (45, 0)], [(3, 0), (5, 0), (61, 0)]]),
   (.inlet, [[(52, 0)]]),
   (.inlet, [[(51, 1)]]),
   (.outlet 46 0, []),
   (.outlet 46 1, []),
   (.obj, [[(53, 1)]]),
   (.seq [none, none], [[(53, 0)], [(51, 0)]]),
   (.obj, [[(49, 0)], [(50, 0)]]),
   (.obj, []),
   (.obj, [[(0, 0)]]),
   (.obj, [[(0, 1)]]),
   (.obj, [[(0, 2)]]),
   (.obj, []),
   (.obj, []),
   (.obj, []),
   (.obj, [])]

theorem shape_eq (a1 : ℚ) : shapeOf (nodes a1) = shape := rfl

theorem checked (a1 : ℚ) : check (shapeOf (nodes a1)) recvs order prio [0, 0, 0, 0, 0, 0, 0, 0, 0, 0, 0, 0, 0, 0, 0, 0, 0, 0, 0, 0, 0, 0, 0, 0, 0, 0, 0, 0, 0, 0, 0, 0, 0, 0, 0, 0, 0, 0, 0, 0, 0, 0, 1, 1, 0, 0, 0, 0, 0, 0, 0, 0, 1, 0, 0, 0, 0, 0, 0, 0, 0, 0] = true := by
  rw [shape_eq]
  decide +kernel

theorem classes (a1 : ℚ) : clsOK (nodes a1) = true := rfl

theorem drv_valid (a1 : ℚ) {i : Nat} (h : i < 3) (m : Msg) : (Control.Src.outlet (drv i) 0 m).Valid (mkPatch (nodes a1) (recvsOf recvs) prio) (nodes a1).length := by
  have : i = 0 ∨ i = 1 ∨ i = 2 := by omega
  rcases this with rfl | rfl | rfl <;> exact ⟨Nat.le_of_ble_eq_true rfl, rfl, Nat.le_of_ble_eq_true rfl⟩

/-- messages for the inlets there are -/
def Inlet : Ev → Prop
  | .ext _ i _ => i < 3
  | .tick => True

theorem driven (a1 : ℚ) {e : Ev} (h : Inlet e) : Driven (nodes a1) (recvsOf recvs) prio drv e := by
  cases e with
  | ext t i m => exact drv_valid a1 h
  | tick => trivial

theorem to_code {c : Ctx} {a1 : ℚ} {M : Mach} (hM : Code a1 c M) {tab : Nat → List ℚ} {Fits : Ev → Prop} (hf : ∀ e, Fits e → Inlet e) {σ : Type}
    {on : σ → Ev → σ} {x0 : σ} {Sim : σ → St → Prop}
    (h : Simulates (mach a1 c) drv (start c (nodes a1) tab) Fits on x0 Sim) :
    Simulates M drv (start c (nodes a1) tab) Fits on x0 (fun x s => Sim x s ∧ GoodQ (nodes a1) s) :=
  h.code (checked a1) (classes a1) hM fun e he => driven a1 (hf e he)

/-- it compiles -/
theorem code_exists (a1 : ℚ) (c : Ctx) : ∃ M, Code a1 c M := exists_compiled c (checked a1) (f := 20) (by rw [shape_eq]; decide +kernel)

/-! one lemma per object, for rewriting -/

theorem n0_0 (a1 : ℚ) (c : Ctx) (m : Msg) : (sys a1 c).node (0, 0) m = .fwd false [] := rfl
theorem n0_1 (a1 : ℚ) (c : Ctx) (m : Msg) : (sys a1 c).node (0, 1) m = .fwd false [] := rfl
theorem n0_2 (a1 : ℚ) (c : Ctx) (m : Msg) : (sys a1 c).node (0, 2) m = .fwd false [((31, 0), m)] := rfl
theorem n3 (a1 : ℚ) (c : Ctx) (i : Nat) (m : Msg) : (sys a1 c).node (3, i) m = .obj (beh c (.msg [.lit (.float 1), .arg 0]) 3 i m) := rfl
theorem o3_0 (a1 : ℚ) (c : Ctx) : (sys a1 c).out 3 0 = [(4, 0)] := rfl
theorem n4 (a1 : ℚ) (c : Ctx) (i : Nat) (m : Msg) : (sys a1 c).node (4, i) m = .obj (beh c (.bink .div 0) 4 i m) := rfl
theorem o4_0 (a1 : ℚ) (c : Ctx) : (sys a1 c).out 4 0 = [(42, 0)] := rfl
theorem n5 (a1 : ℚ) (c : Ctx) (i : Nat) (m : Msg) : (sys a1 c).node (5, i) m = .obj (beh c (.bink .add 2) 5 i m) := rfl
theorem o5_0 (a1 : ℚ) (c : Ctx) : (sys a1 c).out 5 0 = [(6, 0)] := rfl
theorem n6 (a1 : ℚ) (c : Ctx) (i : Nat) (m : Msg) : (sys a1 c).node (6, i) m = .obj (beh c (.msg [.lit (.float 2), .arg 0]) 6 i m) := rfl
theorem o6_0 (a1 : ℚ) (c : Ctx) : (sys a1 c).out 6 0 = [(7, 0)] := rfl
theorem n7 (a1 : ℚ) (c : Ctx) (i : Nat) (m : Msg) : (sys a1 c).node (7, i) m = .obj (beh c (.bink .div 0) 7 i m) := rfl
theorem o7_0 (a1 : ℚ) (c : Ctx) : (sys a1 c).out 7 0 = [(8, 0)] := rfl
theorem n8 (a1 : ℚ) (c : Ctx) (i : Nat) (m : Msg) : (sys a1 c).node (8, i) m = .obj (beh c (.msg [.lit (.float 2), .arg 0]) 8 i m) := rfl
theorem o8_0 (a1 : ℚ) (c : Ctx) : (sys a1 c).out 8 0 = [(9, 0)] := rfl
theorem n9 (a1 : ℚ) (c : Ctx) (i : Nat) (m : Msg) : (sys a1 c).node (9, i) m = .obj (beh c (.bink .sub 0) 9 i m) := rfl
theorem o9_0 (a1 : ℚ) (c : Ctx) : (sys a1 c).out 9 0 = [(58, 0)] := rfl
theorem n10_0 (a1 : ℚ) (c : Ctx) (m : Msg) : (sys a1 c).node (10, 0) m = .fwd false [((13, 0), m)] := rfl
theorem n12 (a1 : ℚ) (c : Ctx) (i : Nat) (m : Msg) : (sys a1 c).node (12, i) m = .fwd false [((22, 0), m)] := rfl
theorem n13 (a1 : ℚ) (c : Ctx) (i : Nat) (m : Msg) : (sys a1 c).node (13, i) m = .obj (beh c (.msg [.lit (.sym "samplerate")]) 13 i m) := rfl
theorem o13_0 (a1 : ℚ) (c : Ctx) : (sys a1 c).out 13 0 = [(14, 0)] := rfl
theorem n14 (a1 : ℚ) (c : Ctx) (i : Nat) (m : Msg) : (sys a1 c).node (14, i) m = .obj (beh c (.system) 14 i m) := rfl
theorem o14_0 (a1 : ℚ) (c : Ctx) : (sys a1 c).out 14 0 = [(12, 0)] := rfl
theorem n15 (a1 : ℚ) (c : Ctx) (i : Nat) (m : Msg) : (sys a1 c).node (15, i) m = .obj (beh c (.bink .div 0) 15 i m) := rfl
theorem o15_0 (a1 : ℚ) (c : Ctx) : (sys a1 c).out 15 0 = [(59, 0)] := rfl
theorem n16 (a1 : ℚ) (c : Ctx) (i : Nat) (m : Msg) : (sys a1 c).node (16, i) m = .obj (beh c (.none) 16 i m) := rfl
theorem n17 (a1 : ℚ) (c : Ctx) (i : Nat) (m : Msg) : (sys a1 c).node (17, i) m = .obj (beh c (.none) 17 i m) := rfl
theorem n18 (a1 : ℚ) (c : Ctx) (i : Nat) (m : Msg) : (sys a1 c).node (18, i) m = .obj (beh c (.none) 18 i m) := rfl
theorem n19 (a1 : ℚ) (c : Ctx) (i : Nat) (m : Msg) : (sys a1 c).node (19, i) m = .obj (beh c (.none) 19 i m) := rfl
theorem n20 (a1 : ℚ) (c : Ctx) (i : Nat) (m : Msg) : (sys a1 c).node (20, i) m = .obj (beh c (.none) 20 i m) := rfl
theorem n21 (a1 : ℚ) (c : Ctx) (i : Nat) (m : Msg) : (sys a1 c).node (21, i) m = .obj (beh c (.none) 21 i m) := rfl
theorem n22 (a1 : ℚ) (c : Ctx) (i : Nat) (m : Msg) : (sys a1 c).node (22, i) m = .obj (beh c (.msg [.lit (.float (6.28319)), .arg 0]) 22 i m) := rfl
theorem o22_0 (a1 : ℚ) (c : Ctx) : (sys a1 c).out 22 0 = [(15, 0)] := rfl
theorem n23 (a1 : ℚ) (c : Ctx) (i : Nat) (m : Msg) : (sys a1 c).node (23, i) m = .obj (beh c (.none) 23 i m) := rfl
theorem n24 (a1 : ℚ) (c : Ctx) (i : Nat) (m : Msg) : (sys a1 c).node (24, i) m = .obj (beh c (.none) 24 i m) := rfl
theorem n25 (a1 : ℚ) (c : Ctx) (i : Nat) (m : Msg) : (sys a1 c).node (25, i) m = .obj (beh c (.none) 25 i m) := rfl
theorem n26 (a1 : ℚ) (c : Ctx) (i : Nat) (m : Msg) : (sys a1 c).node (26, i) m = .obj (beh c (.none) 26 i m) := rfl
theorem n27 (a1 : ℚ) (c : Ctx) (i : Nat) (m : Msg) : (sys a1 c).node (27, i) m = .obj (beh c (.none) 27 i m) := rfl
theorem n28 (a1 : ℚ) (c : Ctx) (i : Nat) (m : Msg) : (sys a1 c).node (28, i) m = .obj (beh c (.none) 28 i m) := rfl
theorem n29 (a1 : ℚ) (c : Ctx) (i : Nat) (m : Msg) : (sys a1 c).node (29, i) m = .obj (beh c (.none) 29 i m) := rfl
theorem n30 (a1 : ℚ) (c : Ctx) (i : Nat) (m : Msg) : (sys a1 c).node (30, i) m = .obj (beh c (.none) 30 i m) := rfl
theorem n31_0 (a1 : ℚ) (c : Ctx) (m : Msg) : (sys a1 c).node (31, 0) m = .fwd false [((32, 0), m)] := rfl
theorem n31_1 (a1 : ℚ) (c : Ctx) (m : Msg) : (sys a1 c).node (31, 1) m = .fwd false [((32, 1), m)] := rfl
theorem n32 (a1 : ℚ) (c : Ctx) (i : Nat) (m : Msg) : (sys a1 c).node (32, i) m = .obj (beh c (.var (.float a1)) 32 i m) := rfl
theorem o32_0 (a1 : ℚ) (c : Ctx) : (sys a1 c).out 32 0 = [(33, 0)] := rfl
theorem n33 (a1 : ℚ) (c : Ctx) (i : Nat) (m : Msg) : (sys a1 c).node (33, i) m = .fwd false [((46, 0), m)] := rfl
theorem n38 (a1 : ℚ) (c : Ctx) (i : Nat) (m : Msg) : (sys a1 c).node (38, i) m = .fwd false [((43, 0), m)] := rfl
theorem n39 (a1 : ℚ) (c : Ctx) (i : Nat) (m : Msg) : (sys a1 c).node (39, i) m = .obj (beh c (.none) 39 i m) := rfl
theorem n41 (a1 : ℚ) (c : Ctx) (i : Nat) (m : Msg) : (sys a1 c).node (41, i) m = .obj (beh c (.msg [.lit (.float 0)]) 41 i m) := rfl
theorem o41_0 (a1 : ℚ) (c : Ctx) : (sys a1 c).out 41 0 = [(5, 0)] := rfl
theorem n42 (a1 : ℚ) (c : Ctx) (i : Nat) (m : Msg) : (sys a1 c).node (42, i) m = .fwd false ([((60, 0), m)] ++ ([])) := rfl
theorem n43 (a1 : ℚ) (c : Ctx) (i : Nat) (m : Msg) : (sys a1 c).node (43, i) m = .fwd false ([((10, 0), m)] ++ ([((31, 0), m)] ++ ([]))) := rfl
theorem n44 (a1 : ℚ) (c : Ctx) (i : Nat) (m : Msg) : (sys a1 c).node (44, i) m = .obj (beh c (.none) 44 i m) := rfl
theorem n45 (a1 : ℚ) (c : Ctx) (i : Nat) (m : Msg) : (sys a1 c).node (45, i) m = .obj (beh c (.msg [.lit (.float (-1))]) 45 i m) := rfl
theorem o45_0 (a1 : ℚ) (c : Ctx) : (sys a1 c).out 45 0 = [(61, 0), (60, 0)] := rfl
theorem n46_0 (a1 : ℚ) (c : Ctx) (m : Msg) : (sys a1 c).node (46, 0) m = .fwd false [((52, 0), m)] := rfl
theorem n46_1 (a1 : ℚ) (c : Ctx) (m : Msg) : (sys a1 c).node (46, 1) m = .fwd false [((51, 1), m)] := rfl
theorem n49 (a1 : ℚ) (c : Ctx) (i : Nat) (m : Msg) : (sys a1 c).node (49, i) m = .fwd false [((41, 0), m), ((45, 0), m)] := rfl
theorem n50 (a1 : ℚ) (c : Ctx) (i : Nat) (m : Msg) : (sys a1 c).node (50, i) m = .fwd false [((3, 0), m), ((5, 0), m), ((61, 0), m)] := rfl
theorem n51 (a1 : ℚ) (c : Ctx) (i : Nat) (m : Msg) : (sys a1 c).node (51, i) m = .obj (beh c (.bin .ge (1e-05)) 51 i m) := rfl
theorem o51_0 (a1 : ℚ) (c : Ctx) : (sys a1 c).out 51 0 = [(53, 1)] := rfl
theorem n52 (a1 : ℚ) (c : Ctx) (i : Nat) (m : Msg) : (sys a1 c).node (52, i) m = .fwd false ([((51, 0), m)] ++ ([((53, 0), m)] ++ ([]))) := rfl
theorem n53 (a1 : ℚ) (c : Ctx) (i : Nat) (m : Msg) : (sys a1 c).node (53, i) m = .obj (beh c (.ite 0) 53 i m) := rfl
theorem o53_0 (a1 : ℚ) (c : Ctx) : (sys a1 c).out 53 0 = [(49, 0)] := rfl
theorem o53_1 (a1 : ℚ) (c : Ctx) : (sys a1 c).out 53 1 = [(50, 0)] := rfl
theorem n54 (a1 : ℚ) (c : Ctx) (i : Nat) (m : Msg) : (sys a1 c).node (54, i) m = .obj (beh c (.none) 54 i m) := rfl
theorem n55 (a1 : ℚ) (c : Ctx) (i : Nat) (m : Msg) : (sys a1 c).node (55, i) m = .obj (beh c (.none) 55 i m) := rfl
theorem o55_0 (a1 : ℚ) (c : Ctx) : (sys a1 c).out 55 0 = [(0, 0)] := rfl
theorem n56 (a1 : ℚ) (c : Ctx) (i : Nat) (m : Msg) : (sys a1 c).node (56, i) m = .obj (beh c (.none) 56 i m) := rfl
theorem o56_0 (a1 : ℚ) (c : Ctx) : (sys a1 c).out 56 0 = [(0, 1)] := rfl
theorem n57 (a1 : ℚ) (c : Ctx) (i : Nat) (m : Msg) : (sys a1 c).node (57, i) m = .obj (beh c (.none) 57 i m) := rfl
theorem o57_0 (a1 : ℚ) (c : Ctx) : (sys a1 c).out 57 0 = [(0, 2)] := rfl
theorem n58 (a1 : ℚ) (c : Ctx) (i : Nat) (m : Msg) : (sys a1 c).node (58, i) m = .obj (beh c (.probe 0) 58 i m) := rfl
theorem n59 (a1 : ℚ) (c : Ctx) (i : Nat) (m : Msg) : (sys a1 c).node (59, i) m = .obj (beh c (.probe 1) 59 i m) := rfl
theorem n60 (a1 : ℚ) (c : Ctx) (i : Nat) (m : Msg) : (sys a1 c).node (60, i) m = .obj (beh c (.probe 2) 60 i m) := rfl
theorem n61 (a1 : ℚ) (c : Ctx) (i : Nat) (m : Msg) : (sys a1 c).node (61, i) m = .obj (beh c (.probe 3) 61 i m) := rfl

attribute [lib_vcf] n0_0 n0_1 n0_2 n3 o3_0 n4 o4_0 n5 o5_0 n6 o6_0 n7 o7_0 n8 o8_0 n9 o9_0 n10_0 n12 n13 o13_0 n14 o14_0 n15 o15_0 n16 n17 n18 n19 n20 n21 n22 o22_0 n23 n24 n25 n26 n27 n28 n29 n30 n31_0 n31_1 n32 o32_0 n33 n38 n39 n41 o41_0 n42 n43 n44 n45 o45_0 n46_0 n46_1 n49 n50 n51 o51_0 n52 n53 o53_0 o53_1 n54 n55 o55_0 n56 o56_0 n57 o57_0 n58 n59 n60 n61

end Verif.Lib.Vcf
