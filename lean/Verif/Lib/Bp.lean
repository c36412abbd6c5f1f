import Verif.LibSim
/-!
The abstraction `[bp~]`: transcription of hvcc/interpreters/pd2hv/libs/pd/bp~.pd and of the library files it uses, made by
tools/pdlib.py.  Object `0` is the abstraction itself, its outlets are connected to `.probe`s.
-/
set_option linter.unusedVariables false
set_option linter.style.longLine false
set_option maxRecDepth 100000
namespace Verif.Lib.Bp
open Verif.Control (Dest Kind Cast Patch)

/-- the objects of hvcc/interpreters/pd2hv/libs/pd/bp~.pd: kind, connections of each outlet, class -/
def nodes (a1 : ℚ) (a2 : ℚ) : List Node :=
  [⟨.graph [1, 2, 20], [], .none⟩,  -- 0: bp~
   ⟨.inlet, [[]], .none⟩,  -- 1: bp~, object 0: inlet~
   ⟨.inlet, [[(13, 0)]], .none⟩,  -- 2: bp~, object 1: inlet fc
   ⟨.obj, [], .none⟩,  -- 3: bp~, object 2: outlet~ (makes a signal)
   ⟨.obj, [[(42, 0)]], .bin .div 0⟩,  -- 4: bp~, object 3: /
   ⟨.graph [6], [[(4, 1)]], .none⟩,  -- 5: bp~, object 4: samplerate~
   ⟨.inlet, [[(8, 0)]], .none⟩,  -- 6: samplerate~, object 0: inlet
   ⟨.outlet 5 0, [], .none⟩,  -- 7: samplerate~, object 1: outlet
   ⟨.obj, [[(9, 0)]], .msg [.lit (.sym "samplerate")]⟩,  -- 8: samplerate~, object 2: samplerate
   ⟨.obj, [[(7, 0)]], .system⟩,  -- 9: samplerate~, object 3: pd @hv_obj system
   ⟨.graph [], [[(26, 0)]], .none⟩,  -- 10: bp~, object 5: loadbang
   ⟨.recv, [[(12, 0)]], .none⟩,  -- 11: loadbang, object 0: r __hv_init \$1
   ⟨.outlet 10 0, [], .none⟩,  -- 12: loadbang, object 1: outlet
   ⟨.graph [16, 17], [[(19, 0)]], .none⟩,  -- 13: bp~, object 6: f \$1
   ⟨.obj, [[(15, 0)]], .var (.float a1)⟩,  -- 14: f, object 1: pd @hv_obj __var \$1
   ⟨.outlet 13 0, [], .none⟩,  -- 15: f, object 2: outlet
   ⟨.inlet, [[(14, 0)]], .none⟩,  -- 16: f, object 3: inlet -->
   ⟨.inlet, [[(14, 1)]], .none⟩,  -- 17: f, object 4: inlet -->
   ⟨.obj, [], .none⟩,  -- 18: bp~, object 7: pd @hv_obj biquad (makes a signal)
   ⟨.obj, [[(4, 0)]], .bink .mul (6.28319)⟩,  -- 19: bp~, object 8: * 6.28319
   ⟨.inlet, [[(36, 0)]], .none⟩,  -- 20: bp~, object 11: inlet q
   ⟨.graph [24, 25], [[(47, 0)]], .none⟩,  -- 21: bp~, object 12: f \$2
   ⟨.obj, [[(23, 0)]], .var (.float a2)⟩,  -- 22: f, object 1: pd @hv_obj __var \$1
   ⟨.outlet 21 0, [], .none⟩,  -- 23: f, object 2: outlet
   ⟨.inlet, [[(22, 0)]], .none⟩,  -- 24: f, object 3: inlet -->
   ⟨.inlet, [[(22, 1)]], .none⟩,  -- 25: f, object 4: inlet -->
   ⟨.seq [none, none, none], [[(13, 0)], [(5, 0)], [(21, 0)]], .none⟩,  -- 26: bp~, object 13: t a a a
   ⟨.obj, [[(48, 0)]], .bin .div 0⟩,  -- 27: bp~, object 14: /
   ⟨.obj, [[(29, 0)]], .bink .mul (-1)⟩,  -- 28: bp~, object 15: * -1
   ⟨.obj, [[(49, 0)]], .bink .add 1⟩,  -- 29: bp~, object 16: + 1
   ⟨.graph [31], [[(34, 0)]], .none⟩,  -- 30: bp~, object 20: cos
   ⟨.inlet, [[(33, 0)]], .none⟩,  -- 31: cos, object 0: inlet
   ⟨.outlet 30 0, [], .none⟩,  -- 32: cos, object 1: outlet
   ⟨.obj, [[(32, 0)]], .fn "cos"⟩,  -- 33: cos, object 2: pd @hv_obj __cos
   ⟨.obj, [[(35, 1)]], .bink .mul 2⟩,  -- 34: bp~, object 21: * 2
   ⟨.obj, [[(39, 0)]], .bin .mul 0⟩,  -- 35: bp~, object 22: *
   ⟨.seq [some .bang, none], [[(13, 0)], [(21, 0)]], .none⟩,  -- 36: bp~, object 24: t b a
   ⟨.obj, [[(38, 0)]], .bink .mul (-1)⟩,  -- 37: bp~, object 26: * -1
   ⟨.obj, [[(53, 0)]], .bink .mul (-1)⟩,  -- 38: bp~, object 27: * -1
   ⟨.obj, [[(54, 0)]], .bink .mul (-1)⟩,  -- 39: bp~, object 28: * -1
   ⟨.obj, [[(45, 0)]], .bink .mul 2⟩,  -- 40: bp~, object 29: * 2
   ⟨.obj, [[(44, 1)]], .bin .mul 0⟩,  -- 41: bp~, object 30: *
   ⟨.seq [none, none, none], [[(27, 0)], [(30, 0)], [(41, 1)]], .none⟩,  -- 42: bp~, object 31: t a a a
   ⟨.obj, [[(37, 0)]], .powk 2⟩,  -- 43: bp~, object 32: pow 2
   ⟨.obj, [[(45, 1)]], .bin .add 0⟩,  -- 44: bp~, object 33: +
   ⟨.obj, [[(55, 0)]], .bin .mul 0⟩,  -- 45: bp~, object 34: *
   ⟨.seq [none, none, none], [[(40, 0)], [(44, 0)], [(28, 0)]], .none⟩,  -- 46: bp~, object 35: t a a a
   ⟨.obj, [[(27, 1)]], .bink .max (0.001)⟩,  -- 47: bp~, object 39: max 0.001
   ⟨.obj, [[(46, 0)]], .bink .min 1⟩,  -- 48: bp~, object 40: min 1
   ⟨.seq [none, none, none], [[(41, 0)], [(35, 0)], [(43, 0)]], .none⟩,  -- 49: bp~, object 41: t a a a
   ⟨.obj, [[(0, 0)]], .none⟩,  -- 50: an object of the surrounding patch, connected to inlet 0
   ⟨.obj, [[(0, 1)]], .none⟩,  -- 51: an object of the surrounding patch, connected to inlet 1
   ⟨.obj, [[(0, 2)]], .none⟩,  -- 52: an object of the surrounding patch, connected to inlet 2
   ⟨.obj, [], .probe 0⟩,  -- 53: messages for bp~, object 7: pd @hv_obj biquad, inlet 5
   ⟨.obj, [], .probe 1⟩,  -- 54: messages for bp~, object 7: pd @hv_obj biquad, inlet 4
   ⟨.obj, [], .probe 2⟩]  -- 55: messages for bp~, object 7: pd @hv_obj biquad, inlet 1

/-- receivers by name, in the order of the file: 0 = __hv_init -/
def recvs : List (List Nat) := [[11]]

/-- priorities of receivers, PdReceiveObject.py:96-100 -/
def prio : Nat → Int
  | 11 => 999
  | _ => 0

/-- the receivers in the order in which they fire -/
def order : List (List Nat) := [[11]]

/-- the object connected to inlet `i` -/
def drv (i : Nat) : Nat := 50 + i

/-- the abstraction as it is (`Verif.Control`: C45, C35) -/
def mach (a1 : ℚ) (a2 : ℚ) (c : Ctx) : Mach := source c (nodes a1 a2) (recvsOf recvs) prio (recvsOf order)

/-- `M` is generated code -/
def Code (a1 : ℚ) (a2 : ℚ) (c : Ctx) (M : Mach) : Prop := Compiled c (nodes a1 a2) (recvsOf recvs) prio M

/-- what it means -/
def sys (a1 : ℚ) (a2 : ℚ) (c : Ctx) : Control.Sys St Msg := (mach a1 a2 c).sys

/-- kinds and connections -/
def shape : Shape :=
  [(.graph [1, 2, 20], []),
   (.inlet, [[]]),
   (.inlet, [[(13, 0)]]),
   (.obj, []),
   (.obj, [[(42, 0)]]),
   (.graph [6], [[(4, 1)]]),
   (.inlet, [[(8, 0)]]),
   (.outlet 5 0, []),
   (.obj, [[(9, 0)]]),
   (.obj, [[(7, 0)]]),
   (.graph [], [[(26, 0)]]),
   (.recv, [[(12, 0)]]),
   (.outlet 10 0, []),
   (.graph [16, 17], [[(19, 0)]]),
   (.obj, [[(15, 0)]]),
   (.outlet 13 0, []),
   (.inlet, [[(14, 0)]]),
   (.inlet, [[(14, 1)]]),
   (.obj, []),
   (.obj, [[(4, 0)]]),
   (.inlet, [[(36, 0)]]),
   (.graph [24, 25], [[(47, 0)]]),
   (.obj, [[(23, 0)]]),
   (.outlet 21 0, []),
   (.inlet, [[(22, 0)]]),
   (.inlet, [[(22, 1)]]),
   (.seq [none, none, none], [[(13, 0)], [(5, 0)], [(21, 0)]]),
   (.obj, [[(48, 0)]]),
   (.obj, [[(29, 0)]]),
   (.obj, [[(49, 0)]]),
   (.graph [31], [[(34, 0)]]),
   (.inlet, [[(33, 0)]]),
   (.outlet 30 0, []),
   (.obj, [[(32, 0)]]),
   (.obj, [[(35, 1)]]),
   (.obj, [[(39, 0)]]),
   (.seq [some .bang, none], [[(13, 0)], [(21, 0)]]),
   (.obj, [[(38, 0)]]),
   (.obj, [[(53, 0)]]),
   (.obj, [[(54, 0)]]),
   (.obj, [[(45, 0)]]),
   (.obj, [[(44, 1)]]),
   (.seq [none, none, none], [[(27, 0)], [(30, 0)], [(41, 1)]]),
   (.obj, [[(37, 0)]]),
   (.obj, [[(45, 1)]]),
   (.obj, [[(55, 0)]]),
   (.seq [none, none, none], [[(40, 0)], [(44, 0)], [(28, 0)]]),
   (.obj, [[(27, 1)]]),
   (.obj, [[(46, 0)]]),
   (.seq [none, none, none], [[(41, 0)], [(35, 0)], [(43, 0)]]),
   (.obj, [[(0, 0)]]),
   (.obj, [[(0, 1)]]),
   (.obj, [[(0, 2)]]),
   (.obj, []),
   (.obj, []),
   (.obj, [])]

theorem shape_eq (a1 : ℚ) (a2 : ℚ) : shapeOf (nodes a1 a2) = shape := rfl

theorem checked (a1 : ℚ) (a2 : ℚ) : check (shapeOf (nodes a1 a2)) recvs order prio [0, 0, 0, 0, 0, 0, 0, 0, 0, 0, 0, 0, 0, 0, 0, 0, 0, 0, 0, 0, 0, 0, 0, 0, 0, 0, 1, 0, 0, 0, 0, 0, 0, 0, 0, 0, 1, 0, 0, 0, 0, 0, 1, 0, 0, 0, 1, 0, 0, 1, 0, 0, 0, 0, 0, 0] = true := by
  rw [shape_eq]
  decide +kernel

theorem classes (a1 : ℚ) (a2 : ℚ) : clsOK (nodes a1 a2) = true := rfl

theorem drv_valid (a1 : ℚ) (a2 : ℚ) {i : Nat} (h : i < 3) (m : Msg) : (Control.Src.outlet (drv i) 0 m).Valid (mkPatch (nodes a1 a2) (recvsOf recvs) prio) (nodes a1 a2).length := by
  have : i = 0 ∨ i = 1 ∨ i = 2 := by omega
  rcases this with rfl | rfl | rfl <;> exact ⟨Nat.le_of_ble_eq_true rfl, rfl, Nat.le_of_ble_eq_true rfl⟩

/-- messages for the inlets there are -/
def Inlet : Ev → Prop
  | .ext _ i _ => i < 3
  | .tick => True

theorem driven (a1 : ℚ) (a2 : ℚ) {e : Ev} (h : Inlet e) : Driven (nodes a1 a2) (recvsOf recvs) prio drv e := by
  cases e with
  | ext t i m => exact drv_valid a1 a2 h
  | tick => trivial

theorem to_code {c : Ctx} {a1 : ℚ} {a2 : ℚ} {M : Mach} (hM : Code a1 a2 c M) {tab : Nat → List ℚ} {Fits : Ev → Prop} (hf : ∀ e, Fits e → Inlet e) {σ : Type}
    {on : σ → Ev → σ} {x0 : σ} {Sim : σ → St → Prop}
    (h : Simulates (mach a1 a2 c) drv (start c (nodes a1 a2) tab) Fits on x0 Sim) :
    Simulates M drv (start c (nodes a1 a2) tab) Fits on x0 (fun x s => Sim x s ∧ GoodQ (nodes a1 a2) s) :=
  h.code (checked a1 a2) (classes a1 a2) hM fun e he => driven a1 a2 (hf e he)

/-- it compiles -/
theorem code_exists (a1 : ℚ) (a2 : ℚ) (c : Ctx) : ∃ M, Code a1 a2 c M := exists_compiled c (checked a1 a2) (f := 20) (by rw [shape_eq]; decide +kernel)

/-! one lemma per object, for rewriting -/

theorem n0_0 (a1 : ℚ) (a2 : ℚ) (c : Ctx) (m : Msg) : (sys a1 a2 c).node (0, 0) m = .fwd false [] := rfl
theorem n0_1 (a1 : ℚ) (a2 : ℚ) (c : Ctx) (m : Msg) : (sys a1 a2 c).node (0, 1) m = .fwd false [((13, 0), m)] := rfl
theorem n0_2 (a1 : ℚ) (a2 : ℚ) (c : Ctx) (m : Msg) : (sys a1 a2 c).node (0, 2) m = .fwd false [((36, 0), m)] := rfl
theorem n3 (a1 : ℚ) (a2 : ℚ) (c : Ctx) (i : Nat) (m : Msg) : (sys a1 a2 c).node (3, i) m = .obj (beh c (.none) 3 i m) := rfl
theorem n4 (a1 : ℚ) (a2 : ℚ) (c : Ctx) (i : Nat) (m : Msg) : (sys a1 a2 c).node (4, i) m = .obj (beh c (.bin .div 0) 4 i m) := rfl
theorem o4_0 (a1 : ℚ) (a2 : ℚ) (c : Ctx) : (sys a1 a2 c).out 4 0 = [(42, 0)] := rfl
theorem n5_0 (a1 : ℚ) (a2 : ℚ) (c : Ctx) (m : Msg) : (sys a1 a2 c).node (5, 0) m = .fwd false [((8, 0), m)] := rfl
theorem n7 (a1 : ℚ) (a2 : ℚ) (c : Ctx) (i : Nat) (m : Msg) : (sys a1 a2 c).node (7, i) m = .fwd false [((4, 1), m)] := rfl
theorem n8 (a1 : ℚ) (a2 : ℚ) (c : Ctx) (i : Nat) (m : Msg) : (sys a1 a2 c).node (8, i) m = .obj (beh c (.msg [.lit (.sym "samplerate")]) 8 i m) := rfl
theorem o8_0 (a1 : ℚ) (a2 : ℚ) (c : Ctx) : (sys a1 a2 c).out 8 0 = [(9, 0)] := rfl
theorem n9 (a1 : ℚ) (a2 : ℚ) (c : Ctx) (i : Nat) (m : Msg) : (sys a1 a2 c).node (9, i) m = .obj (beh c (.system) 9 i m) := rfl
theorem o9_0 (a1 : ℚ) (a2 : ℚ) (c : Ctx) : (sys a1 a2 c).out 9 0 = [(7, 0)] := rfl
theorem n12 (a1 : ℚ) (a2 : ℚ) (c : Ctx) (i : Nat) (m : Msg) : (sys a1 a2 c).node (12, i) m = .fwd false [((26, 0), m)] := rfl
theorem n13_0 (a1 : ℚ) (a2 : ℚ) (c : Ctx) (m : Msg) : (sys a1 a2 c).node (13, 0) m = .fwd false [((14, 0), m)] := rfl
theorem n13_1 (a1 : ℚ) (a2 : ℚ) (c : Ctx) (m : Msg) : (sys a1 a2 c).node (13, 1) m = .fwd false [((14, 1), m)] := rfl
theorem n14 (a1 : ℚ) (a2 : ℚ) (c : Ctx) (i : Nat) (m : Msg) : (sys a1 a2 c).node (14, i) m = .obj (beh c (.var (.float a1)) 14 i m) := rfl
theorem o14_0 (a1 : ℚ) (a2 : ℚ) (c : Ctx) : (sys a1 a2 c).out 14 0 = [(15, 0)] := rfl
theorem n15 (a1 : ℚ) (a2 : ℚ) (c : Ctx) (i : Nat) (m : Msg) : (sys a1 a2 c).node (15, i) m = .fwd false [((19, 0), m)] := rfl
theorem n18 (a1 : ℚ) (a2 : ℚ) (c : Ctx) (i : Nat) (m : Msg) : (sys a1 a2 c).node (18, i) m = .obj (beh c (.none) 18 i m) := rfl
theorem n19 (a1 : ℚ) (a2 : ℚ) (c : Ctx) (i : Nat) (m : Msg) : (sys a1 a2 c).node (19, i) m = .obj (beh c (.bink .mul (6.28319)) 19 i m) := rfl
theorem o19_0 (a1 : ℚ) (a2 : ℚ) (c : Ctx) : (sys a1 a2 c).out 19 0 = [(4, 0)] := rfl
theorem n21_0 (a1 : ℚ) (a2 : ℚ) (c : Ctx) (m : Msg) : (sys a1 a2 c).node (21, 0) m = .fwd false [((22, 0), m)] := rfl
theorem n21_1 (a1 : ℚ) (a2 : ℚ) (c : Ctx) (m : Msg) : (sys a1 a2 c).node (21, 1) m = .fwd false [((22, 1), m)] := rfl
theorem n22 (a1 : ℚ) (a2 : ℚ) (c : Ctx) (i : Nat) (m : Msg) : (sys a1 a2 c).node (22, i) m = .obj (beh c (.var (.float a2)) 22 i m) := rfl
theorem o22_0 (a1 : ℚ) (a2 : ℚ) (c : Ctx) : (sys a1 a2 c).out 22 0 = [(23, 0)] := rfl
theorem n23 (a1 : ℚ) (a2 : ℚ) (c : Ctx) (i : Nat) (m : Msg) : (sys a1 a2 c).node (23, i) m = .fwd false [((47, 0), m)] := rfl
theorem n26 (a1 : ℚ) (a2 : ℚ) (c : Ctx) (i : Nat) (m : Msg) : (sys a1 a2 c).node (26, i) m = .fwd false ([((21, 0), m)] ++ ([((5, 0), m)] ++ ([((13, 0), m)] ++ ([])))) := rfl
theorem n27 (a1 : ℚ) (a2 : ℚ) (c : Ctx) (i : Nat) (m : Msg) : (sys a1 a2 c).node (27, i) m = .obj (beh c (.bin .div 0) 27 i m) := rfl
theorem o27_0 (a1 : ℚ) (a2 : ℚ) (c : Ctx) : (sys a1 a2 c).out 27 0 = [(48, 0)] := rfl
theorem n28 (a1 : ℚ) (a2 : ℚ) (c : Ctx) (i : Nat) (m : Msg) : (sys a1 a2 c).node (28, i) m = .obj (beh c (.bink .mul (-1)) 28 i m) := rfl
theorem o28_0 (a1 : ℚ) (a2 : ℚ) (c : Ctx) : (sys a1 a2 c).out 28 0 = [(29, 0)] := rfl
theorem n29 (a1 : ℚ) (a2 : ℚ) (c : Ctx) (i : Nat) (m : Msg) : (sys a1 a2 c).node (29, i) m = .obj (beh c (.bink .add 1) 29 i m) := rfl
theorem o29_0 (a1 : ℚ) (a2 : ℚ) (c : Ctx) : (sys a1 a2 c).out 29 0 = [(49, 0)] := rfl
theorem n30_0 (a1 : ℚ) (a2 : ℚ) (c : Ctx) (m : Msg) : (sys a1 a2 c).node (30, 0) m = .fwd false [((33, 0), m)] := rfl
theorem n32 (a1 : ℚ) (a2 : ℚ) (c : Ctx) (i : Nat) (m : Msg) : (sys a1 a2 c).node (32, i) m = .fwd false [((34, 0), m)] := rfl
theorem n33 (a1 : ℚ) (a2 : ℚ) (c : Ctx) (i : Nat) (m : Msg) : (sys a1 a2 c).node (33, i) m = .obj (beh c (.fn "cos") 33 i m) := rfl
theorem o33_0 (a1 : ℚ) (a2 : ℚ) (c : Ctx) : (sys a1 a2 c).out 33 0 = [(32, 0)] := rfl
theorem n34 (a1 : ℚ) (a2 : ℚ) (c : Ctx) (i : Nat) (m : Msg) : (sys a1 a2 c).node (34, i) m = .obj (beh c (.bink .mul 2) 34 i m) := rfl
theorem o34_0 (a1 : ℚ) (a2 : ℚ) (c : Ctx) : (sys a1 a2 c).out 34 0 = [(35, 1)] := rfl
theorem n35 (a1 : ℚ) (a2 : ℚ) (c : Ctx) (i : Nat) (m : Msg) : (sys a1 a2 c).node (35, i) m = .obj (beh c (.bin .mul 0) 35 i m) := rfl
theorem o35_0 (a1 : ℚ) (a2 : ℚ) (c : Ctx) : (sys a1 a2 c).out 35 0 = [(39, 0)] := rfl
theorem n36 (a1 : ℚ) (a2 : ℚ) (c : Ctx) (i : Nat) (m : Msg) : (sys a1 a2 c).node (36, i) m = .fwd false ([((21, 0), m)] ++ (castTo .bang [(13, 0)] m ++ ([]))) := rfl
theorem n37 (a1 : ℚ) (a2 : ℚ) (c : Ctx) (i : Nat) (m : Msg) : (sys a1 a2 c).node (37, i) m = .obj (beh c (.bink .mul (-1)) 37 i m) := rfl
theorem o37_0 (a1 : ℚ) (a2 : ℚ) (c : Ctx) : (sys a1 a2 c).out 37 0 = [(38, 0)] := rfl
theorem n38 (a1 : ℚ) (a2 : ℚ) (c : Ctx) (i : Nat) (m : Msg) : (sys a1 a2 c).node (38, i) m = .obj (beh c (.bink .mul (-1)) 38 i m) := rfl
theorem o38_0 (a1 : ℚ) (a2 : ℚ) (c : Ctx) : (sys a1 a2 c).out 38 0 = [(53, 0)] := rfl
theorem n39 (a1 : ℚ) (a2 : ℚ) (c : Ctx) (i : Nat) (m : Msg) : (sys a1 a2 c).node (39, i) m = .obj (beh c (.bink .mul (-1)) 39 i m) := rfl
theorem o39_0 (a1 : ℚ) (a2 : ℚ) (c : Ctx) : (sys a1 a2 c).out 39 0 = [(54, 0)] := rfl
theorem n40 (a1 : ℚ) (a2 : ℚ) (c : Ctx) (i : Nat) (m : Msg) : (sys a1 a2 c).node (40, i) m = .obj (beh c (.bink .mul 2) 40 i m) := rfl
theorem o40_0 (a1 : ℚ) (a2 : ℚ) (c : Ctx) : (sys a1 a2 c).out 40 0 = [(45, 0)] := rfl
theorem n41 (a1 : ℚ) (a2 : ℚ) (c : Ctx) (i : Nat) (m : Msg) : (sys a1 a2 c).node (41, i) m = .obj (beh c (.bin .mul 0) 41 i m) := rfl
theorem o41_0 (a1 : ℚ) (a2 : ℚ) (c : Ctx) : (sys a1 a2 c).out 41 0 = [(44, 1)] := rfl
theorem n42 (a1 : ℚ) (a2 : ℚ) (c : Ctx) (i : Nat) (m : Msg) : (sys a1 a2 c).node (42, i) m = .fwd false ([((41, 1), m)] ++ ([((30, 0), m)] ++ ([((27, 0), m)] ++ ([])))) := rfl
theorem n43 (a1 : ℚ) (a2 : ℚ) (c : Ctx) (i : Nat) (m : Msg) : (sys a1 a2 c).node (43, i) m = .obj (beh c (.powk 2) 43 i m) := rfl
theorem o43_0 (a1 : ℚ) (a2 : ℚ) (c : Ctx) : (sys a1 a2 c).out 43 0 = [(37, 0)] := rfl
theorem n44 (a1 : ℚ) (a2 : ℚ) (c : Ctx) (i : Nat) (m : Msg) : (sys a1 a2 c).node (44, i) m = .obj (beh c (.bin .add 0) 44 i m) := rfl
theorem o44_0 (a1 : ℚ) (a2 : ℚ) (c : Ctx) : (sys a1 a2 c).out 44 0 = [(45, 1)] := rfl
theorem n45 (a1 : ℚ) (a2 : ℚ) (c : Ctx) (i : Nat) (m : Msg) : (sys a1 a2 c).node (45, i) m = .obj (beh c (.bin .mul 0) 45 i m) := rfl
theorem o45_0 (a1 : ℚ) (a2 : ℚ) (c : Ctx) : (sys a1 a2 c).out 45 0 = [(55, 0)] := rfl
theorem n46 (a1 : ℚ) (a2 : ℚ) (c : Ctx) (i : Nat) (m : Msg) : (sys a1 a2 c).node (46, i) m = .fwd false ([((28, 0), m)] ++ ([((44, 0), m)] ++ ([((40, 0), m)] ++ ([])))) := rfl
theorem n47 (a1 : ℚ) (a2 : ℚ) (c : Ctx) (i : Nat) (m : Msg) : (sys a1 a2 c).node (47, i) m = .obj (beh c (.bink .max (0.001)) 47 i m) := rfl
theorem o47_0 (a1 : ℚ) (a2 : ℚ) (c : Ctx) : (sys a1 a2 c).out 47 0 = [(27, 1)] := rfl
theorem n48 (a1 : ℚ) (a2 : ℚ) (c : Ctx) (i : Nat) (m : Msg) : (sys a1 a2 c).node (48, i) m = .obj (beh c (.bink .min 1) 48 i m) := rfl
theorem o48_0 (a1 : ℚ) (a2 : ℚ) (c : Ctx) : (sys a1 a2 c).out 48 0 = [(46, 0)] := rfl
theorem n49 (a1 : ℚ) (a2 : ℚ) (c : Ctx) (i : Nat) (m : Msg) : (sys a1 a2 c).node (49, i) m = .fwd false ([((43, 0), m)] ++ ([((35, 0), m)] ++ ([((41, 0), m)] ++ ([])))) := rfl
theorem n50 (a1 : ℚ) (a2 : ℚ) (c : Ctx) (i : Nat) (m : Msg) : (sys a1 a2 c).node (50, i) m = .obj (beh c (.none) 50 i m) := rfl
theorem o50_0 (a1 : ℚ) (a2 : ℚ) (c : Ctx) : (sys a1 a2 c).out 50 0 = [(0, 0)] := rfl
theorem n51 (a1 : ℚ) (a2 : ℚ) (c : Ctx) (i : Nat) (m : Msg) : (sys a1 a2 c).node (51, i) m = .obj (beh c (.none) 51 i m) := rfl
theorem o51_0 (a1 : ℚ) (a2 : ℚ) (c : Ctx) : (sys a1 a2 c).out 51 0 = [(0, 1)] := rfl
theorem n52 (a1 : ℚ) (a2 : ℚ) (c : Ctx) (i : Nat) (m : Msg) : (sys a1 a2 c).node (52, i) m = .obj (beh c (.none) 52 i m) := rfl
theorem o52_0 (a1 : ℚ) (a2 : ℚ) (c : Ctx) : (sys a1 a2 c).out 52 0 = [(0, 2)] := rfl
theorem n53 (a1 : ℚ) (a2 : ℚ) (c : Ctx) (i : Nat) (m : Msg) : (sys a1 a2 c).node (53, i) m = .obj (beh c (.probe 0) 53 i m) := rfl
theorem n54 (a1 : ℚ) (a2 : ℚ) (c : Ctx) (i : Nat) (m : Msg) : (sys a1 a2 c).node (54, i) m = .obj (beh c (.probe 1) 54 i m) := rfl
theorem n55 (a1 : ℚ) (a2 : ℚ) (c : Ctx) (i : Nat) (m : Msg) : (sys a1 a2 c).node (55, i) m = .obj (beh c (.probe 2) 55 i m) := rfl

attribute [lib_bp] n0_0 n0_1 n0_2 n3 n4 o4_0 n5_0 n7 n8 o8_0 n9 o9_0 n12 n13_0 n13_1 n14 o14_0 n15 n18 n19 o19_0 n21_0 n21_1 n22 o22_0 n23 n26 n27 o27_0 n28 o28_0 n29 o29_0 n30_0 n32 n33 o33_0 n34 o34_0 n35 o35_0 n36 n37 o37_0 n38 o38_0 n39 o39_0 n40 o40_0 n41 o41_0 n42 n43 o43_0 n44 o44_0 n45 o45_0 n46 n47 o47_0 n48 o48_0 n49 n50 o50_0 n51 o51_0 n52 o52_0 n53 n54 n55

end Verif.Lib.Bp
