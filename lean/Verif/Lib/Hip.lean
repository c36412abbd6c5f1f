import Verif.LibSim
/-!
The abstraction `[hip~]`: transcription of hvcc/interpreters/pd2hv/libs/pd/hip~.pd and of the library files it uses, made by
tools/pdlib.py.  Object `0` is the abstraction itself, its outlets are connected to `.probe`s.
-/
set_option linter.unusedVariables false
set_option linter.style.longLine false
set_option maxRecDepth 100000
namespace Verif.Lib.Hip
open Verif.Control (Dest Kind Cast Patch)

/-- the objects of hvcc/interpreters/pd2hv/libs/pd/hip~.pd: kind, connections of each outlet, class -/
def nodes (a1 : ℚ) : List Node :=
  [⟨.graph [27, 28], [], .none⟩,  -- 0: hip~
   ⟨.obj, [[(2, 0)]], .bink .add 1⟩,  -- 1: hip~, object 1: + 1
   ⟨.obj, [[(41, 0)]], .bink .mul (0.5)⟩,  -- 2: hip~, object 2: * 0.5
   ⟨.obj, [], .none⟩,  -- 3: hip~, object 3: *~ (makes a signal)
   ⟨.obj, [[(5, 0)]], .msg [.lit (.float 1), .arg 0]⟩,  -- 4: hip~, object 4: 1 \$1
   ⟨.obj, [[(6, 0)]], .bink .sub 0⟩,  -- 5: hip~, object 5: -
   ⟨.graph [12, 7, 8], [[(26, 0)]], .none⟩,  -- 6: hip~, object 6: clip 0 1
   ⟨.inlet, [[(10, 1)]], .none⟩,  -- 7: clip, object 0: inlet
   ⟨.inlet, [[(9, 1)]], .none⟩,  -- 8: clip, object 1: inlet
   ⟨.obj, [[(10, 0)]], .bin .min 1⟩,  -- 9: clip, object 4: min \$2
   ⟨.obj, [[(11, 0)]], .bin .max 0⟩,  -- 10: clip, object 5: max \$1
   ⟨.outlet 6 0, [], .none⟩,  -- 11: clip, object 6: outlet
   ⟨.inlet, [[(9, 0)]], .none⟩,  -- 12: clip, object 7: inlet
   ⟨.obj, [], .none⟩,  -- 13: hip~, object 7: sig~ 1 (makes a signal)
   ⟨.obj, [], .none⟩,  -- 14: hip~, object 8: rzero~ (makes a signal)
   ⟨.obj, [], .none⟩,  -- 15: hip~, object 9: sig~ (makes a signal)
   ⟨.graph [], [[(24, 0)]], .none⟩,  -- 16: hip~, object 10: loadbang
   ⟨.recv, [[(18, 0)]], .none⟩,  -- 17: loadbang, object 0: r __hv_init \$1
   ⟨.outlet 16 0, [], .none⟩,  -- 18: loadbang, object 1: outlet
   ⟨.graph [22, 23], [[(31, 0)]], .none⟩,  -- 19: hip~, object 11: f \$1
   ⟨.obj, [[(21, 0)]], .var (.float a1)⟩,  -- 20: f, object 1: pd @hv_obj __var \$1
   ⟨.outlet 19 0, [], .none⟩,  -- 21: f, object 2: outlet
   ⟨.inlet, [[(20, 0)]], .none⟩,  -- 22: f, object 3: inlet -->
   ⟨.inlet, [[(20, 1)]], .none⟩,  -- 23: f, object 4: inlet -->
   ⟨.seq [none, none], [[(19, 0)], [(32, 0)]], .none⟩,  -- 24: hip~, object 12: t a a
   ⟨.obj, [], .none⟩,  -- 25: hip~, object 13: outlet~ (makes a signal)
   ⟨.seq [none, none], [[(30, 0)], [(1, 0)]], .none⟩,  -- 26: hip~, object 14: t a a
   ⟨.inlet, [[]], .none⟩,  -- 27: hip~, object 15: inlet~
   ⟨.inlet, [[(19, 0)]], .none⟩,  -- 28: hip~, object 16: inlet fc
   ⟨.obj, [], .none⟩,  -- 29: hip~, object 17: pd @hv_obj __rpole~f (makes a signal)
   ⟨.obj, [[(42, 0)]], .bink .mul (-1)⟩,  -- 30: hip~, object 18: * -1
   ⟨.obj, [[(37, 0)]], .bink .max 1⟩,  -- 31: hip~, object 19: max 1
   ⟨.graph [33], [[(38, 1)]], .none⟩,  -- 32: hip~, object 20: samplerate~
   ⟨.inlet, [[(35, 0)]], .none⟩,  -- 33: samplerate~, object 0: inlet
   ⟨.outlet 32 0, [], .none⟩,  -- 34: samplerate~, object 1: outlet
   ⟨.obj, [[(36, 0)]], .msg [.lit (.sym "samplerate")]⟩,  -- 35: samplerate~, object 2: samplerate
   ⟨.obj, [[(34, 0)]], .system⟩,  -- 36: samplerate~, object 3: pd @hv_obj system
   ⟨.obj, [[(38, 0)]], .bink .mul (6.28319)⟩,  -- 37: hip~, object 21: * 6.28319
   ⟨.obj, [[(4, 0)]], .bin .div 0⟩,  -- 38: hip~, object 22: /
   ⟨.obj, [[(0, 0)]], .none⟩,  -- 39: an object of the surrounding patch, connected to inlet 0
   ⟨.obj, [[(0, 1)]], .none⟩,  -- 40: an object of the surrounding patch, connected to inlet 1
   ⟨.obj, [], .probe 0⟩,  -- 41: messages for hip~, object 3: *~, inlet 1
   ⟨.obj, [], .probe 1⟩]  -- 42: messages for hip~, object 9: sig~, inlet 0

/-- receivers by name, in the order of the file: 0 = __hv_init -/
def recvs : List (List Nat) := [[17]]

/-- priorities of receivers, PdReceiveObject.py:96-100 -/
def prio : Nat → Int
  | 17 => 999
  | _ => 0

/-- the receivers in the order in which they fire -/
def order : List (List Nat) := [[17]]

/-- the object connected to inlet `i` -/
def drv (i : Nat) : Nat := 39 + i

/-- the abstraction as it is (`Verif.Control`: C45, C35) -/
def mach (a1 : ℚ) (c : Ctx) : Mach := source c (nodes a1) (recvsOf recvs) prio (recvsOf order)

/-- `M` is generated code -/
def Code (a1 : ℚ) (c : Ctx) (M : Mach) : Prop := Compiled c (nodes a1) (recvsOf recvs) prio M

/-- what it means -/
def sys (a1 : ℚ) (c : Ctx) : Control.Sys St Msg := (mach a1 c).sys

/-- kinds and connections -/
def shape : Shape :=
  [(.graph [27, 28], []),
   (.obj, [[(2, 0)]]),
   (.obj, [[(41, 0)]]),
   (.obj, []),
   (.obj, [[(5, 0)]]),
   (.obj, [[(6, 0)]]),
   (.graph [12, 7, 8], [[(26, 0)]]),
   (.inlet, [[(10, 1)]]),
   (.inlet, [[(9, 1)]]),
   (.obj, [[(10, 0)]]),
   (.obj, [[(11, 0)]]),
   (.outlet 6 0, []),
   (.inlet, [[(9, 0)]]),
   (.obj, []),
   (.obj, []),
   (.obj, []),
   (.graph [], [[(24, 0)]]),
   (.recv, [[(18, 0)]]),
   (.outlet 16 0, []),
   (.graph [22, 23], [[(31, 0)]]),
   (.obj, [[(21, 0)]]),
   (.outlet 19 0, []),
   (.inlet, [[(20, 0)]]),
   (.inlet, [[(20, 1)]]),
   (.seq [none, none], [[(19, 0)], [(32, 0)]]),
   (.obj, []),
   (.seq [none, none], [[(30, 0)], [(1, 0)]]),
   (.inlet, [[]]),
   (.inlet, [[(19, 0)]]),
   (.obj, []),
   (.obj, [[(42, 0)]]),
   (.obj, [[(37, 0)]]),
   (.graph [33], [[(38, 1)]]),
   (.inlet, [[(35, 0)]]),
   (.outlet 32 0, []),
   (.obj, [[(36, 0)]]),
   (.obj, [[(34, 0)]]),
   (.obj, [[(38, 0)]]),
   (.obj, [[(4, 0)]]),
   (.obj, [[(0, 0)]]),
   (.obj, [[(0, 1)]]),
   (.obj, []),
   (.obj, [])]

theorem shape_eq (a1 : ℚ) : shapeOf (nodes a1) = shape := rfl

theorem checked (a1 : ℚ) : check (shapeOf (nodes a1)) recvs order prio [0, 0, 0, 0, 0, 0, 0, 0, 0, 0, 0, 0, 0, 0, 0, 0, 0, 0, 0, 0, 0, 0, 0, 0, 1, 0, 1, 0, 0, 0, 0, 0, 0, 0, 0, 0, 0, 0, 0, 0, 0, 0, 0] = true := by
  rw [shape_eq]
  decide +kernel

theorem classes (a1 : ℚ) : clsOK (nodes a1) = true := rfl

theorem drv_valid (a1 : ℚ) {i : Nat} (h : i < 2) (m : Msg) : (Control.Src.outlet (drv i) 0 m).Valid (mkPatch (nodes a1) (recvsOf recvs) prio) (nodes a1).length := by
  have : i = 0 ∨ i = 1 := by omega
  rcases this with rfl | rfl <;> exact ⟨Nat.le_of_ble_eq_true rfl, rfl, Nat.le_of_ble_eq_true rfl⟩

/-- messages for the inlets there are -/
def Inlet : Ev → Prop
  | .ext _ i _ => i < 2
  | .tick => True

theorem driven (a1 : ℚ) {e : Ev} (h : Inlet e) : Driven (nodes a1) (recvsOf recvs) prio drv e := by
  cases e with
  | ext t i m => exact drv_valid a1 h
  | tick => trivial

theorem to_code {c : Ctx} {a1 : ℚ} {M : Mach} (hM : Code a1 c M) {tab : Nat → List ℚ} {Fits : Ev → Prop} (hf : ∀ e, Fits e → Inlet e) {σ : Type}
    {on : σ → Ev → σ} {x0 : σ} {Sim : σ → St → Prop}
    (h : Simulates (mach a1 c) drv (start c (nodes a1) tab) Fits on x0 Sim) :
    Simulates M drv (start c (nodes a1) tab) Fits on x0 (fun x s => Sim x s ∧ GoodQ (nodes a1) s) :=
  h.code (checked a1) (classes a1) hM fun e he => driven a1 (hf e he)

/-- it compiles -/
theorem code_exists (a1 : ℚ) (c : Ctx) : ∃ M, Code a1 c M := exists_compiled c (checked a1) (f := 20) (by rw [shape_eq]; decide +kernel)

/-! one lemma per object, for rewriting -/

theorem n0_0 (a1 : ℚ) (c : Ctx) (m : Msg) : (sys a1 c).node (0, 0) m = .fwd false [] := rfl
theorem n0_1 (a1 : ℚ) (c : Ctx) (m : Msg) : (sys a1 c).node (0, 1) m = .fwd false [((19, 0), m)] := rfl
theorem n1 (a1 : ℚ) (c : Ctx) (i : Nat) (m : Msg) : (sys a1 c).node (1, i) m = .obj (beh c (.bink .add 1) 1 i m) := rfl
theorem o1_0 (a1 : ℚ) (c : Ctx) : (sys a1 c).out 1 0 = [(2, 0)] := rfl
theorem n2 (a1 : ℚ) (c : Ctx) (i : Nat) (m : Msg) : (sys a1 c).node (2, i) m = .obj (beh c (.bink .mul (0.5)) 2 i m) := rfl
theorem o2_0 (a1 : ℚ) (c : Ctx) : (sys a1 c).out 2 0 = [(41, 0)] := rfl
theorem n3 (a1 : ℚ) (c : Ctx) (i : Nat) (m : Msg) : (sys a1 c).node (3, i) m = .obj (beh c (.none) 3 i m) := rfl
theorem n4 (a1 : ℚ) (c : Ctx) (i : Nat) (m : Msg) : (sys a1 c).node (4, i) m = .obj (beh c (.msg [.lit (.float 1), .arg 0]) 4 i m) := rfl
theorem o4_0 (a1 : ℚ) (c : Ctx) : (sys a1 c).out 4 0 = [(5, 0)] := rfl
theorem n5 (a1 : ℚ) (c : Ctx) (i : Nat) (m : Msg) : (sys a1 c).node (5, i) m = .obj (beh c (.bink .sub 0) 5 i m) := rfl
theorem o5_0 (a1 : ℚ) (c : Ctx) : (sys a1 c).out 5 0 = [(6, 0)] := rfl
theorem n6_0 (a1 : ℚ) (c : Ctx) (m : Msg) : (sys a1 c).node (6, 0) m = .fwd false [((9, 0), m)] := rfl
theorem n6_1 (a1 : ℚ) (c : Ctx) (m : Msg) : (sys a1 c).node (6, 1) m = .fwd false [((10, 1), m)] := rfl
theorem n6_2 (a1 : ℚ) (c : Ctx) (m : Msg) : (sys a1 c).node (6, 2) m = .fwd false [((9, 1), m)] := rfl
theorem n9 (a1 : ℚ) (c : Ctx) (i : Nat) (m : Msg) : (sys a1 c).node (9, i) m = .obj (beh c (.bin .min 1) 9 i m) := rfl
theorem o9_0 (a1 : ℚ) (c : Ctx) : (sys a1 c).out 9 0 = [(10, 0)] := rfl
theorem n10 (a1 : ℚ) (c : Ctx) (i : Nat) (m : Msg) : (sys a1 c).node (10, i) m = .obj (beh c (.bin .max 0) 10 i m) := rfl
theorem o10_0 (a1 : ℚ) (c : Ctx) : (sys a1 c).out 10 0 = [(11, 0)] := rfl
theorem n11 (a1 : ℚ) (c : Ctx) (i : Nat) (m : Msg) : (sys a1 c).node (11, i) m = .fwd false [((26, 0), m)] := rfl
theorem n13 (a1 : ℚ) (c : Ctx) (i : Nat) (m : Msg) : (sys a1 c).node (13, i) m = .obj (beh c (.none) 13 i m) := rfl
theorem n14 (a1 : ℚ) (c : Ctx) (i : Nat) (m : Msg) : (sys a1 c).node (14, i) m = .obj (beh c (.none) 14 i m) := rfl
theorem n15 (a1 : ℚ) (c : Ctx) (i : Nat) (m : Msg) : (sys a1 c).node (15, i) m = .obj (beh c (.none) 15 i m) := rfl
theorem n18 (a1 : ℚ) (c : Ctx) (i : Nat) (m : Msg) : (sys a1 c).node (18, i) m = .fwd false [((24, 0), m)] := rfl
theorem n19_0 (a1 : ℚ) (c : Ctx) (m : Msg) : (sys a1 c).node (19, 0) m = .fwd false [((20, 0), m)] := rfl
theorem n19_1 (a1 : ℚ) (c : Ctx) (m : Msg) : (sys a1 c).node (19, 1) m = .fwd false [((20, 1), m)] := rfl
theorem n20 (a1 : ℚ) (c : Ctx) (i : Nat) (m : Msg) : (sys a1 c).node (20, i) m = .obj (beh c (.var (.float a1)) 20 i m) := rfl
theorem o20_0 (a1 : ℚ) (c : Ctx) : (sys a1 c).out 20 0 = [(21, 0)] := rfl
theorem n21 (a1 : ℚ) (c : Ctx) (i : Nat) (m : Msg) : (sys a1 c).node (21, i) m = .fwd false [((31, 0), m)] := rfl
theorem n24 (a1 : ℚ) (c : Ctx) (i : Nat) (m : Msg) : (sys a1 c).node (24, i) m = .fwd false ([((32, 0), m)] ++ ([((19, 0), m)] ++ ([]))) := rfl
theorem n25 (a1 : ℚ) (c : Ctx) (i : Nat) (m : Msg) : (sys a1 c).node (25, i) m = .obj (beh c (.none) 25 i m) := rfl
theorem n26 (a1 : ℚ) (c : Ctx) (i : Nat) (m : Msg) : (sys a1 c).node (26, i) m = .fwd false ([((1, 0), m)] ++ ([((30, 0), m)] ++ ([]))) := rfl
theorem n29 (a1 : ℚ) (c : Ctx) (i : Nat) (m : Msg) : (sys a1 c).node (29, i) m = .obj (beh c (.none) 29 i m) := rfl
theorem n30 (a1 : ℚ) (c : Ctx) (i : Nat) (m : Msg) : (sys a1 c).node (30, i) m = .obj (beh c (.bink .mul (-1)) 30 i m) := rfl
theorem o30_0 (a1 : ℚ) (c : Ctx) : (sys a1 c).out 30 0 = [(42, 0)] := rfl
theorem n31 (a1 : ℚ) (c : Ctx) (i : Nat) (m : Msg) : (sys a1 c).node (31, i) m = .obj (beh c (.bink .max 1) 31 i m) := rfl
theorem o31_0 (a1 : ℚ) (c : Ctx) : (sys a1 c).out 31 0 = [(37, 0)] := rfl
theorem n32_0 (a1 : ℚ) (c : Ctx) (m : Msg) : (sys a1 c).node (32, 0) m = .fwd false [((35, 0), m)] := rfl
theorem n34 (a1 : ℚ) (c : Ctx) (i : Nat) (m : Msg) : (sys a1 c).node (34, i) m = .fwd false [((38, 1), m)] := rfl
theorem n35 (a1 : ℚ) (c : Ctx) (i : Nat) (m : Msg) : (sys a1 c).node (35, i) m = .obj (beh c (.msg [.lit (.sym "samplerate")]) 35 i m) := rfl
theorem o35_0 (a1 : ℚ) (c : Ctx) : (sys a1 c).out 35 0 = [(36, 0)] := rfl
theorem n36 (a1 : ℚ) (c : Ctx) (i : Nat) (m : Msg) : (sys a1 c).node (36, i) m = .obj (beh c (.system) 36 i m) := rfl
theorem o36_0 (a1 : ℚ) (c : Ctx) : (sys a1 c).out 36 0 = [(34, 0)] := rfl
theorem n37 (a1 : ℚ) (c : Ctx) (i : Nat) (m : Msg) : (sys a1 c).node (37, i) m = .obj (beh c (.bink .mul (6.28319)) 37 i m) := rfl
theorem o37_0 (a1 : ℚ) (c : Ctx) : (sys a1 c).out 37 0 = [(38, 0)] := rfl
theorem n38 (a1 : ℚ) (c : Ctx) (i : Nat) (m : Msg) : (sys a1 c).node (38, i) m = .obj (beh c (.bin .div 0) 38 i m) := rfl
theorem o38_0 (a1 : ℚ) (c : Ctx) : (sys a1 c).out 38 0 = [(4, 0)] := rfl
theorem n39 (a1 : ℚ) (c : Ctx) (i : Nat) (m : Msg) : (sys a1 c).node (39, i) m = .obj (beh c (.none) 39 i m) := rfl
theorem o39_0 (a1 : ℚ) (c : Ctx) : (sys a1 c).out 39 0 = [(0, 0)] := rfl
theorem n40 (a1 : ℚ) (c : Ctx) (i : Nat) (m : Msg) : (sys a1 c).node (40, i) m = .obj (beh c (.none) 40 i m) := rfl
theorem o40_0 (a1 : ℚ) (c : Ctx) : (sys a1 c).out 40 0 = [(0, 1)] := rfl
theorem n41 (a1 : ℚ) (c : Ctx) (i : Nat) (m : Msg) : (sys a1 c).node (41, i) m = .obj (beh c (.probe 0) 41 i m) := rfl
theorem n42 (a1 : ℚ) (c : Ctx) (i : Nat) (m : Msg) : (sys a1 c).node (42, i) m = .obj (beh c (.probe 1) 42 i m) := rfl

attribute [lib_hip] n0_0 n0_1 n1 o1_0 n2 o2_0 n3 n4 o4_0 n5 o5_0 n6_0 n6_1 n6_2 n9 o9_0 n10 o10_0 n11 n13 n14 n15 n18 n19_0 n19_1 n20 o20_0 n21 n24 n25 n26 n29 n30 o30_0 n31 o31_0 n32_0 n34 n35 o35_0 n36 o36_0 n37 o37_0 n38 o38_0 n39 o39_0 n40 o40_0 n41 n42

end Verif.Lib.Hip
