import Verif.LibSim
/-!
The abstraction `[lop~]`: transcription of hvcc/interpreters/pd2hv/libs/pd/lop~.pd and of the library files it uses, made by
tools/pdlib.py.  Object `0` is the abstraction itself, its outlets are connected to `.probe`s.
-/
set_option linter.unusedVariables false
set_option linter.style.longLine false
set_option maxRecDepth 100000
namespace Verif.Lib.Lop
open Verif.Control (Dest Kind Cast Patch)

/-- the objects of hvcc/interpreters/pd2hv/libs/pd/lop~.pd: kind, connections of each outlet, class -/
def nodes (a1 : ℚ) : List Node :=
  [⟨.graph [4, 23], [], .none⟩,  -- 0: lop~
   ⟨.graph [], [[(34, 0)]], .none⟩,  -- 1: lop~, object 1: loadbang
   ⟨.recv, [[(3, 0)]], .none⟩,  -- 2: loadbang, object 0: r __hv_init \$1
   ⟨.outlet 1 0, [], .none⟩,  -- 3: loadbang, object 1: outlet
   ⟨.inlet, [[]], .none⟩,  -- 4: lop~, object 2: inlet~
   ⟨.graph [8, 9], [[(10, 0)]], .none⟩,  -- 5: lop~, object 3: f \$1
   ⟨.obj, [[(7, 0)]], .var (.float a1)⟩,  -- 6: f, object 1: pd @hv_obj __var \$1
   ⟨.outlet 5 0, [], .none⟩,  -- 7: f, object 2: outlet
   ⟨.inlet, [[(6, 0)]], .none⟩,  -- 8: f, object 3: inlet -->
   ⟨.inlet, [[(6, 1)]], .none⟩,  -- 9: f, object 4: inlet -->
   ⟨.graph [18, 19], [[(26, 0)]], .none⟩,  -- 10: lop~, object 4: pd hz2rad
   ⟨.graph [12], [[(21, 0)]], .none⟩,  -- 11: lop~, [pd hz2rad], object 0: samplerate~
   ⟨.inlet, [[(14, 0)]], .none⟩,  -- 12: samplerate~, object 0: inlet
   ⟨.outlet 11 0, [], .none⟩,  -- 13: samplerate~, object 1: outlet
   ⟨.obj, [[(15, 0)]], .msg [.lit (.sym "samplerate")]⟩,  -- 14: samplerate~, object 2: samplerate
   ⟨.obj, [[(13, 0)]], .system⟩,  -- 15: samplerate~, object 3: pd @hv_obj system
   ⟨.obj, [[(17, 0)]], .bin .mul 0⟩,  -- 16: lop~, [pd hz2rad], object 1: *
   ⟨.outlet 10 0, [], .none⟩,  -- 17: lop~, [pd hz2rad], object 2: outlet
   ⟨.inlet, [[(16, 0)]], .none⟩,  -- 18: lop~, [pd hz2rad], object 3: inlet fc
   ⟨.inlet, [[(11, 0)]], .none⟩,  -- 19: lop~, [pd hz2rad], object 4: inlet init
   ⟨.obj, [[(16, 1)]], .bink .div 0⟩,  -- 20: lop~, [pd hz2rad], object 5: /
   ⟨.obj, [[(20, 0)]], .msg [.lit (.float (6.28319)), .arg 0]⟩,  -- 21: lop~, [pd hz2rad], object 6: 6.28319 \$1
   ⟨.obj, [], .none⟩,  -- 22: lop~, object 5: *~ (makes a signal)
   ⟨.inlet, [[(5, 0)]], .none⟩,  -- 23: lop~, object 6: inlet
   ⟨.obj, [], .none⟩,  -- 24: lop~, object 7: sig~ (makes a signal)
   ⟨.obj, [], .none⟩,  -- 25: lop~, object 8: outlet~ (makes a signal)
   ⟨.graph [32, 27, 28], [[(33, 0)]], .none⟩,  -- 26: lop~, object 9: clip 0 1
   ⟨.inlet, [[(30, 1)]], .none⟩,  -- 27: clip, object 0: inlet
   ⟨.inlet, [[(29, 1)]], .none⟩,  -- 28: clip, object 1: inlet
   ⟨.obj, [[(30, 0)]], .bin .min 1⟩,  -- 29: clip, object 4: min \$2
   ⟨.obj, [[(31, 0)]], .bin .max 0⟩,  -- 30: clip, object 5: max \$1
   ⟨.outlet 26 0, [], .none⟩,  -- 31: clip, object 6: outlet
   ⟨.inlet, [[(29, 0)]], .none⟩,  -- 32: clip, object 7: inlet
   ⟨.seq [none, none], [[(39, 0)], [(36, 0)]], .none⟩,  -- 33: lop~, object 10: t a a
   ⟨.seq [none, none], [[(5, 0)], [(10, 1)]], .none⟩,  -- 34: lop~, object 11: t a a
   ⟨.obj, [], .none⟩,  -- 35: lop~, object 12: pd @hv_obj __rpole~f (makes a signal)
   ⟨.obj, [[(40, 0)]], .bink .sub 1⟩,  -- 36: lop~, object 13: - 1
   ⟨.obj, [[(0, 0)]], .none⟩,  -- 37: an object of the surrounding patch, connected to inlet 0
   ⟨.obj, [[(0, 1)]], .none⟩,  -- 38: an object of the surrounding patch, connected to inlet 1
   ⟨.obj, [], .probe 0⟩,  -- 39: messages for lop~, object 5: *~, inlet 1
   ⟨.obj, [], .probe 1⟩]  -- 40: messages for lop~, object 7: sig~, inlet 0

/-- receivers by name, in the order of the file: 0 = __hv_init -/
def recvs : List (List Nat) := [[2]]

/-- priorities of receivers, PdReceiveObject.py:96-100 -/
def prio : Nat → Int
  | 2 => 999
  | _ => 0

/-- the receivers in the order in which they fire -/
def order : List (List Nat) := [[2]]

/-- the object connected to inlet `i` -/
def drv (i : Nat) : Nat := 37 + i

/-- the abstraction as it is (`Verif.Control`: C45, C35) -/
def mach (a1 : ℚ) (c : Ctx) : Mach := source c (nodes a1) (recvsOf recvs) prio (recvsOf order)

/-- `M` is generated code -/
def Code (a1 : ℚ) (c : Ctx) (M : Mach) : Prop := Compiled c (nodes a1) (recvsOf recvs) prio M

/-- what it means -/
def sys (a1 : ℚ) (c : Ctx) : Control.Sys St Msg := (mach a1 c).sys

/-- kinds and connections -/
def shape : Shape :=
  [(.graph [4, 23], []),
   (.graph [], [[(34, 0)]]),
   (.recv, [[(3, 0)]]),
   (.outlet 1 0, []),
   (.inlet, [[]]),
   (.graph [8, 9], [[(10, 0)]]),
   (.obj, [[(7, 0)]]),
   (.outlet 5 0, []),
   (.inlet, [[(6, 0)]]),
   (.inlet, [[(6, 1)]]),
   (.graph [18, 19], [[(26, 0)]]),
   (.graph [12], [[(21, 0)]]),
   (.inlet, [[(14, 0)]]),
   (.outlet 11 0, []),
   (.obj, [[(15, 0)]]),
   (.obj, [[(13, 0)]]),
   (.obj, [[(17, 0)]]),
   (.outlet 10 0, []),
   (.inlet, [[(16, 0)]]),
   (.inlet, [[(11, 0)]]),
   (.obj, [[(16, 1)]]),
   (.obj, [[(20, 0)]]),
   (.obj, []),
   (.inlet, [[(5, 0)]]),
   (.obj, []),
   (.obj, []),
   (.graph [32, 27, 28], [[(33, 0)]]),
   (.inlet, [[(30, 1)]]),
   (.inlet, [[(29, 1)]]),
   (.obj, [[(30, 0)]]),
   (.obj, [[(31, 0)]]),
   (.outlet 26 0, []),
   (.inlet, [[(29, 0)]]),
   (.seq [none, none], [[(39, 0)], [(36, 0)]]),
   (.seq [none, none], [[(5, 0)], [(10, 1)]]),
   (.obj, []),
   (.obj, [[(40, 0)]]),
   (.obj, [[(0, 0)]]),
   (.obj, [[(0, 1)]]),
   (.obj, []),
   (.obj, [])]

theorem shape_eq (a1 : ℚ) : shapeOf (nodes a1) = shape := rfl

theorem checked (a1 : ℚ) : check (shapeOf (nodes a1)) recvs order prio [0, 0, 0, 0, 0, 0, 0, 0, 0, 0, 0, 0, 0, 0, 0, 0, 0, 0, 0, 0, 0, 0, 0, 0, 0, 0, 0, 0, 0, 0, 0, 0, 0, 1, 1, 0, 0, 0, 0, 0, 0] = true := by
  rw [shape_eq]
  decide +kernel

theorem classes (a1 : ℚ) : clsOK (nodes a1) = true := rfl

theorem drv_valid (a1 : ℚ) {i : Nat} (h : i < 2) (m : Msg) : (Control.Src.outlet (drv i) 0 m).Valid (mkPatch (nodes a1) (recvsOf recvs) prio) (nodes a1).length := by
  have : i = 0 ∨ i = 1 := by omega
  rcases this with rfl | rfl <;> exact ⟨Nat.le_of_ble_eq_true rfl, rfl, Nat.le_of_ble_eq_true rfl⟩

/-- messages for the inlets there are -/
def Inlet : Ev → Prop
  | .ext _ i _ => i < 2
  | .tick => True

theorem driven (a1 : ℚ) {e : Ev} (h : Inlet e) : Driven (nodes a1) (recvsOf recvs) prio drv e := by
  cases e with
  | ext t i m => exact drv_valid a1 h
  | tick => trivial

theorem to_code {c : Ctx} {a1 : ℚ} {M : Mach} (hM : Code a1 c M) {tab : Nat → List ℚ} {Fits : Ev → Prop} (hf : ∀ e, Fits e → Inlet e) {σ : Type}
    {on : σ → Ev → σ} {x0 : σ} {Sim : σ → St → Prop}
    (h : Simulates (mach a1 c) drv (start c (nodes a1) tab) Fits on x0 Sim) :
    Simulates M drv (start c (nodes a1) tab) Fits on x0 (fun x s => Sim x s ∧ GoodQ (nodes a1) s) :=
  h.code (checked a1) (classes a1) hM fun e he => driven a1 (hf e he)

/-- it compiles -/
theorem code_exists (a1 : ℚ) (c : Ctx) : ∃ M, Code a1 c M := exists_compiled c (checked a1) (f := 20) (by rw [shape_eq]; decide +kernel)

/-! one lemma per object, for rewriting -/

theorem n0_0 (a1 : ℚ) (c : Ctx) (m : Msg) : (sys a1 c).node (0, 0) m = .fwd false [] := rfl
theorem n0_1 (a1 : ℚ) (c : Ctx) (m : Msg) : (sys a1 c).node (0, 1) m = .fwd false [((5, 0), m)] := rfl
theorem n3 (a1 : ℚ) (c : Ctx) (i : Nat) (m : Msg) : (sys a1 c).node (3, i) m = .fwd false [((34, 0), m)] := rfl
theorem n5_0 (a1 : ℚ) (c : Ctx) (m : Msg) : (sys a1 c).node (5, 0) m = .fwd false [((6, 0), m)] := rfl
theorem n5_1 (a1 : ℚ) (c : Ctx) (m : Msg) : (sys a1 c).node (5, 1) m = .fwd false [((6, 1), m)] := rfl
theorem n6 (a1 : ℚ) (c : Ctx) (i : Nat) (m : Msg) : (sys a1 c).node (6, i) m = .obj (beh c (.var (.float a1)) 6 i m) := rfl
theorem o6_0 (a1 : ℚ) (c : Ctx) : (sys a1 c).out 6 0 = [(7, 0)] := rfl
theorem n7 (a1 : ℚ) (c : Ctx) (i : Nat) (m : Msg) : (sys a1 c).node (7, i) m = .fwd false [((10, 0), m)] := rfl
theorem n10_0 (a1 : ℚ) (c : Ctx) (m : Msg) : (sys a1 c).node (10, 0) m = .fwd false [((16, 0), m)] := rfl
theorem n10_1 (a1 : ℚ) (c : Ctx) (m : Msg) : (sys a1 c).node (10, 1) m = .fwd false [((11, 0), m)] := rfl
theorem n11_0 (a1 : ℚ) (c : Ctx) (m : Msg) : (sys a1 c).node (11, 0) m = .fwd false [((14, 0), m)] := rfl
theorem n13 (a1 : ℚ) (c : Ctx) (i : Nat) (m : Msg) : (sys a1 c).node (13, i) m = .fwd false [((21, 0), m)] := rfl
theorem n14 (a1 : ℚ) (c : Ctx) (i : Nat) (m : Msg) : (sys a1 c).node (14, i) m = .obj (beh c (.msg [.lit (.sym "samplerate")]) 14 i m) := rfl
theorem o14_0 (a1 : ℚ) (c : Ctx) : (sys a1 c).out 14 0 = [(15, 0)] := rfl
theorem n15 (a1 : ℚ) (c : Ctx) (i : Nat) (m : Msg) : (sys a1 c).node (15, i) m = .obj (beh c (.system) 15 i m) := rfl
theorem o15_0 (a1 : ℚ) (c : Ctx) : (sys a1 c).out 15 0 = [(13, 0)] := rfl
theorem n16 (a1 : ℚ) (c : Ctx) (i : Nat) (m : Msg) : (sys a1 c).node (16, i) m = .obj (beh c (.bin .mul 0) 16 i m) := rfl
theorem o16_0 (a1 : ℚ) (c : Ctx) : (sys a1 c).out 16 0 = [(17, 0)] := rfl
theorem n17 (a1 : ℚ) (c : Ctx) (i : Nat) (m : Msg) : (sys a1 c).node (17, i) m = .fwd false [((26, 0), m)] := rfl
theorem n20 (a1 : ℚ) (c : Ctx) (i : Nat) (m : Msg) : (sys a1 c).node (20, i) m = .obj (beh c (.bink .div 0) 20 i m) := rfl
theorem o20_0 (a1 : ℚ) (c : Ctx) : (sys a1 c).out 20 0 = [(16, 1)] := rfl
theorem n21 (a1 : ℚ) (c : Ctx) (i : Nat) (m : Msg) : (sys a1 c).node (21, i) m = .obj (beh c (.msg [.lit (.float (6.28319)), .arg 0]) 21 i m) := rfl
theorem o21_0 (a1 : ℚ) (c : Ctx) : (sys a1 c).out 21 0 = [(20, 0)] := rfl
theorem n22 (a1 : ℚ) (c : Ctx) (i : Nat) (m : Msg) : (sys a1 c).node (22, i) m = .obj (beh c (.none) 22 i m) := rfl
theorem n24 (a1 : ℚ) (c : Ctx) (i : Nat) (m : Msg) : (sys a1 c).node (24, i) m = .obj (beh c (.none) 24 i m) := rfl
theorem n25 (a1 : ℚ) (c : Ctx) (i : Nat) (m : Msg) : (sys a1 c).node (25, i) m = .obj (beh c (.none) 25 i m) := rfl
theorem n26_0 (a1 : ℚ) (c : Ctx) (m : Msg) : (sys a1 c).node (26, 0) m = .fwd false [((29, 0), m)] := rfl
theorem n26_1 (a1 : ℚ) (c : Ctx) (m : Msg) : (sys a1 c).node (26, 1) m = .fwd false [((30, 1), m)] := rfl
theorem n26_2 (a1 : ℚ) (c : Ctx) (m : Msg) : (sys a1 c).node (26, 2) m = .fwd false [((29, 1), m)] := rfl
theorem n29 (a1 : ℚ) (c : Ctx) (i : Nat) (m : Msg) : (sys a1 c).node (29, i) m = .obj (beh c (.bin .min 1) 29 i m) := rfl
theorem o29_0 (a1 : ℚ) (c : Ctx) : (sys a1 c).out 29 0 = [(30, 0)] := rfl
theorem n30 (a1 : ℚ) (c : Ctx) (i : Nat) (m : Msg) : (sys a1 c).node (30, i) m = .obj (beh c (.bin .max 0) 30 i m) := rfl
theorem o30_0 (a1 : ℚ) (c : Ctx) : (sys a1 c).out 30 0 = [(31, 0)] := rfl
theorem n31 (a1 : ℚ) (c : Ctx) (i : Nat) (m : Msg) : (sys a1 c).node (31, i) m = .fwd false [((33, 0), m)] := rfl
theorem n33 (a1 : ℚ) (c : Ctx) (i : Nat) (m : Msg) : (sys a1 c).node (33, i) m = .fwd false ([((36, 0), m)] ++ ([((39, 0), m)] ++ ([]))) := rfl
theorem n34 (a1 : ℚ) (c : Ctx) (i : Nat) (m : Msg) : (sys a1 c).node (34, i) m = .fwd false ([((10, 1), m)] ++ ([((5, 0), m)] ++ ([]))) := rfl
theorem n35 (a1 : ℚ) (c : Ctx) (i : Nat) (m : Msg) : (sys a1 c).node (35, i) m = .obj (beh c (.none) 35 i m) := rfl
theorem n36 (a1 : ℚ) (c : Ctx) (i : Nat) (m : Msg) : (sys a1 c).node (36, i) m = .obj (beh c (.bink .sub 1) 36 i m) := rfl
theorem o36_0 (a1 : ℚ) (c : Ctx) : (sys a1 c).out 36 0 = [(40, 0)] := rfl
theorem n37 (a1 : ℚ) (c : Ctx) (i : Nat) (m : Msg) : (sys a1 c).node (37, i) m = .obj (beh c (.none) 37 i m) := rfl
theorem o37_0 (a1 : ℚ) (c : Ctx) : (sys a1 c).out 37 0 = [(0, 0)] := rfl
theorem n38 (a1 : ℚ) (c : Ctx) (i : Nat) (m : Msg) : (sys a1 c).node (38, i) m = .obj (beh c (.none) 38 i m) := rfl
theorem o38_0 (a1 : ℚ) (c : Ctx) : (sys a1 c).out 38 0 = [(0, 1)] := rfl
theorem n39 (a1 : ℚ) (c : Ctx) (i : Nat) (m : Msg) : (sys a1 c).node (39, i) m = .obj (beh c (.probe 0) 39 i m) := rfl
theorem n40 (a1 : ℚ) (c : Ctx) (i : Nat) (m : Msg) : (sys a1 c).node (40, i) m = .obj (beh c (.probe 1) 40 i m) := rfl

attribute [lib_lop] n0_0 n0_1 n3 n5_0 n5_1 n6 o6_0 n7 n10_0 n10_1 n11_0 n13 n14 o14_0 n15 o15_0 n16 o16_0 n17 n20 o20_0 n21 o21_0 n22 n24 n25 n26_0 n26_1 n26_2 n29 o29_0 n30 o30_0 n31 n33 n34 n35 n36 o36_0 n37 o37_0 n38 o38_0 n39 n40

end Verif.Lib.Lop
