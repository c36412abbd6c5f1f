import Verif.LibSim
/-!
The abstraction `[metro]`: transcription of hvcc/interpreters/pd2hv/libs/pd/metro.pd and of the library files it uses, made by
tools/pdlib.py.  Object `0` is the abstraction itself, its outlets are connected to `.probe`s.
-/
set_option linter.unusedVariables false
set_option linter.style.longLine false
set_option maxRecDepth 100000
namespace Verif.Lib.Metro
open Verif.Control (Dest Kind Cast Patch)

/-- the objects of hvcc/interpreters/pd2hv/libs/pd/metro.pd: kind, connections of each outlet, class -/
def nodes (a1 : ℚ) : List Node :=
  [⟨.graph [1, 2], [[(30, 0)]], .none⟩,  -- 0: metro
   ⟨.inlet, [[(4, 0)]], .none⟩,  -- 1: metro, object 0: inlet
   ⟨.inlet, [[(21, 0)]], .none⟩,  -- 2: metro, object 1: inlet
   ⟨.outlet 0 0, [], .none⟩,  -- 3: metro, object 2: outlet
   ⟨.obj, [[(5, 0)], [(5, 0)], [(8, 0)]], .switch [(.float 0), (.sym "stop")]⟩,  -- 4: metro, object 4: pd @hv_obj __switchcase 0 stop
   ⟨.obj, [[(7, 0)]], .msg [.lit (.sym "clear")]⟩,  -- 5: metro, object 5: clear
   ⟨.seq [none, none], [[(3, 0)], [(7, 0)]], .none⟩,  -- 6: metro, object 6: t a a
   ⟨.obj, [[(6, 0)]], .delay 0⟩,  -- 7: metro, object 7: pd @hv_obj __delay
   ⟨.graph [9], [[(12, 0)]], .none⟩,  -- 8: metro, object 8: bang
   ⟨.inlet, [[(10, 0)]], .none⟩,  -- 9: bang, object 0: inlet -->
   ⟨.cast .bang, [[(11, 0)]], .none⟩,  -- 10: bang, object 1: pd @hv_obj __cast_b
   ⟨.outlet 8 0, [], .none⟩,  -- 11: bang, object 2: outlet -->
   ⟨.seq [none, none], [[(6, 0)], [(5, 0)]], .none⟩,  -- 12: metro, object 9: t a a
   ⟨.obj, [[(7, 2)]], .bink .max 1⟩,  -- 13: metro, object 11: max 1
   ⟨.graph [15], [[(19, 0)]], .none⟩,  -- 14: metro, object 12: samplerate~
   ⟨.inlet, [[(17, 0)]], .none⟩,  -- 15: samplerate~, object 0: inlet
   ⟨.outlet 14 0, [], .none⟩,  -- 16: samplerate~, object 1: outlet
   ⟨.obj, [[(18, 0)]], .msg [.lit (.sym "samplerate")]⟩,  -- 17: samplerate~, object 2: samplerate
   ⟨.obj, [[(16, 0)]], .system⟩,  -- 18: samplerate~, object 3: pd @hv_obj system
   ⟨.obj, [[(20, 1)]], .bink .div 1000⟩,  -- 19: metro, object 13: / 1000
   ⟨.obj, [[(13, 0)]], .bin .mul 0⟩,  -- 20: metro, object 14: *
   ⟨.graph [24, 25], [[(20, 0)]], .none⟩,  -- 21: metro, object 15: f \$1
   ⟨.obj, [[(23, 0)]], .var (.float a1)⟩,  -- 22: f, object 1: pd @hv_obj __var \$1
   ⟨.outlet 21 0, [], .none⟩,  -- 23: f, object 2: outlet
   ⟨.inlet, [[(22, 0)]], .none⟩,  -- 24: f, object 3: inlet -->
   ⟨.inlet, [[(22, 1)]], .none⟩,  -- 25: f, object 4: inlet -->
   ⟨.seq [none, none], [[(21, 0)], [(14, 0)]], .none⟩,  -- 26: metro, object 16: t a a
   ⟨.graph [], [[(26, 0)]], .none⟩,  -- 27: metro, object 17: loadbang
   ⟨.recv, [[(29, 0)]], .none⟩,  -- 28: loadbang, object 0: r __hv_init \$1
   ⟨.outlet 27 0, [], .none⟩,  -- 29: loadbang, object 1: outlet
   ⟨.obj, [], .probe 0⟩,  -- 30: outlet 0 of the abstraction
   ⟨.obj, [[(0, 0)]], .none⟩,  -- 31: an object of the surrounding patch, connected to inlet 0
   ⟨.obj, [[(0, 1)]], .none⟩]  -- 32: an object of the surrounding patch, connected to inlet 1

/-- receivers by name, in the order of the file: 0 = __hv_init -/
def recvs : List (List Nat) := [[28]]

/-- priorities of receivers, PdReceiveObject.py:96-100 -/
def prio : Nat → Int
  | 28 => 999
  | _ => 0

/-- the receivers in the order in which they fire -/
def order : List (List Nat) := [[28]]

/-- the object connected to inlet `i` -/
def drv (i : Nat) : Nat := 31 + i

/-- the abstraction as it is (`Verif.Control`: C45, C35) -/
def mach (a1 : ℚ) (c : Ctx) : Mach := source c (nodes a1) (recvsOf recvs) prio (recvsOf order)

/-- `M` is generated code -/
def Code (a1 : ℚ) (c : Ctx) (M : Mach) : Prop := Compiled c (nodes a1) (recvsOf recvs) prio M

/-- what it means -/
def sys (a1 : ℚ) (c : Ctx) : Control.Sys St Msg := (mach a1 c).sys

/-- kinds and connections -/
def shape : Shape :=
  [(.graph [1, 2], [[(30, 0)]]),
   (.inlet, [[(4, 0)]]),
   (.inlet, [[(21, 0)]]),
   (.outlet 0 0, []),
   (.obj, [[(5, 0)], [(5, 0)], [(8, 0)]]),
   (.obj, [[(7, 0)]]),
   (.seq [none, none], [[(3, 0)], [(7, 0)]]),
   (.obj, [[(6, 0)]]),
   (.graph [9], [[(12, 0)]]),
   (.inlet, [[(10, 0)]]),
   (.cast .bang, [[(11, 0)]]),
   (.outlet 8 0, []),
   (.seq [none, none], [[(6, 0)], [(5, 0)]]),
   (.obj, [[(7, 2)]]),
   (.graph [15], [[(19, 0)]]),
   (.inlet, [[(17, 0)]]),
   (.outlet 14 0, []),
   (.obj, [[(18, 0)]]),
   (.obj, [[(16, 0)]]),
   (.obj, [[(20, 1)]]),
   (.obj, [[(13, 0)]]),
   (.graph [24, 25], [[(20, 0)]]),
   (.obj, [[(23, 0)]]),
   (.outlet 21 0, []),
   (.inlet, [[(22, 0)]]),
   (.inlet, [[(22, 1)]]),
   (.seq [none, none], [[(21, 0)], [(14, 0)]]),
   (.graph [], [[(26, 0)]]),
   (.recv, [[(29, 0)]]),
   (.outlet 27 0, []),
   (.obj, []),
   (.obj, [[(0, 0)]]),
   (.obj, [[(0, 1)]])]

theorem shape_eq (a1 : ℚ) : shapeOf (nodes a1) = shape := rfl

theorem checked (a1 : ℚ) : check (shapeOf (nodes a1)) recvs order prio [0, 0, 0, 0, 0, 0, 1, 0, 0, 0, 0, 0, 2, 0, 0, 0, 0, 0, 0, 0, 0, 0, 0, 0, 0, 0, 1, 0, 0, 0, 0, 0, 0] = true := by
  rw [shape_eq]
  decide +kernel

theorem classes (a1 : ℚ) : clsOK (nodes a1) = true := rfl

theorem drv_valid (a1 : ℚ) {i : Nat} (h : i < 2) (m : Msg) : (Control.Src.outlet (drv i) 0 m).Valid (mkPatch (nodes a1) (recvsOf recvs) prio) (nodes a1).length := by
  have : i = 0 ∨ i = 1 := by omega
  rcases this with rfl | rfl <;> exact ⟨Nat.le_of_ble_eq_true rfl, rfl, Nat.le_of_ble_eq_true rfl⟩

/-- messages for the inlets there are -/
def Inlet : Ev → Prop
  | .ext _ i _ => i < 2
  | .tick => True

theorem driven (a1 : ℚ) {e : Ev} (h : Inlet e) : Driven (nodes a1) (recvsOf recvs) prio drv e := by
  cases e with
  | ext t i m => exact drv_valid a1 h
  | tick => trivial

theorem to_code {c : Ctx} {a1 : ℚ} {M : Mach} (hM : Code a1 c M) {tab : Nat → List ℚ} {Fits : Ev → Prop} (hf : ∀ e, Fits e → Inlet e) {σ : Type}
    {on : σ → Ev → σ} {x0 : σ} {Sim : σ → St → Prop}
    (h : Simulates (mach a1 c) drv (start c (nodes a1) tab) Fits on x0 Sim) :
    Simulates M drv (start c (nodes a1) tab) Fits on x0 (fun x s => Sim x s ∧ GoodQ (nodes a1) s) :=
  h.code (checked a1) (classes a1) hM fun e he => driven a1 (hf e he)

/-- it compiles -/
theorem code_exists (a1 : ℚ) (c : Ctx) : ∃ M, Code a1 c M := exists_compiled c (checked a1) (f := 20) (by rw [shape_eq]; decide +kernel)

/-! one lemma per object, for rewriting -/

theorem n0_0 (a1 : ℚ) (c : Ctx) (m : Msg) : (sys a1 c).node (0, 0) m = .fwd false [((4, 0), m)] := rfl
theorem n0_1 (a1 : ℚ) (c : Ctx) (m : Msg) : (sys a1 c).node (0, 1) m = .fwd false [((21, 0), m)] := rfl
theorem n3 (a1 : ℚ) (c : Ctx) (i : Nat) (m : Msg) : (sys a1 c).node (3, i) m = .fwd false [((30, 0), m)] := rfl
theorem n4 (a1 : ℚ) (c : Ctx) (i : Nat) (m : Msg) : (sys a1 c).node (4, i) m = .obj (beh c (.switch [(.float 0), (.sym "stop")]) 4 i m) := rfl
theorem o4_0 (a1 : ℚ) (c : Ctx) : (sys a1 c).out 4 0 = [(5, 0)] := rfl
theorem o4_1 (a1 : ℚ) (c : Ctx) : (sys a1 c).out 4 1 = [(5, 0)] := rfl
theorem o4_2 (a1 : ℚ) (c : Ctx) : (sys a1 c).out 4 2 = [(8, 0)] := rfl
theorem n5 (a1 : ℚ) (c : Ctx) (i : Nat) (m : Msg) : (sys a1 c).node (5, i) m = .obj (beh c (.msg [.lit (.sym "clear")]) 5 i m) := rfl
theorem o5_0 (a1 : ℚ) (c : Ctx) : (sys a1 c).out 5 0 = [(7, 0)] := rfl
theorem n6 (a1 : ℚ) (c : Ctx) (i : Nat) (m : Msg) : (sys a1 c).node (6, i) m = .fwd false ([((7, 0), m)] ++ ([((3, 0), m)] ++ ([]))) := rfl
theorem n7 (a1 : ℚ) (c : Ctx) (i : Nat) (m : Msg) : (sys a1 c).node (7, i) m = .obj (beh c (.delay 0) 7 i m) := rfl
theorem o7_0 (a1 : ℚ) (c : Ctx) : (sys a1 c).out 7 0 = [(6, 0)] := rfl
theorem n8_0 (a1 : ℚ) (c : Ctx) (m : Msg) : (sys a1 c).node (8, 0) m = .fwd false [((10, 0), m)] := rfl
theorem n10 (a1 : ℚ) (c : Ctx) (i : Nat) (m : Msg) : (sys a1 c).node (10, i) m = castNode .bang [(11, 0)] m := rfl
theorem n11 (a1 : ℚ) (c : Ctx) (i : Nat) (m : Msg) : (sys a1 c).node (11, i) m = .fwd false [((12, 0), m)] := rfl
theorem n12 (a1 : ℚ) (c : Ctx) (i : Nat) (m : Msg) : (sys a1 c).node (12, i) m = .fwd false ([((5, 0), m)] ++ ([((6, 0), m)] ++ ([]))) := rfl
theorem n13 (a1 : ℚ) (c : Ctx) (i : Nat) (m : Msg) : (sys a1 c).node (13, i) m = .obj (beh c (.bink .max 1) 13 i m) := rfl
theorem o13_0 (a1 : ℚ) (c : Ctx) : (sys a1 c).out 13 0 = [(7, 2)] := rfl
theorem n14_0 (a1 : ℚ) (c : Ctx) (m : Msg) : (sys a1 c).node (14, 0) m = .fwd false [((17, 0), m)] := rfl
theorem n16 (a1 : ℚ) (c : Ctx) (i : Nat) (m : Msg) : (sys a1 c).node (16, i) m = .fwd false [((19, 0), m)] := rfl
theorem n17 (a1 : ℚ) (c : Ctx) (i : Nat) (m : Msg) : (sys a1 c).node (17, i) m = .obj (beh c (.msg [.lit (.sym "samplerate")]) 17 i m) := rfl
theorem o17_0 (a1 : ℚ) (c : Ctx) : (sys a1 c).out 17 0 = [(18, 0)] := rfl
theorem n18 (a1 : ℚ) (c : Ctx) (i : Nat) (m : Msg) : (sys a1 c).node (18, i) m = .obj (beh c (.system) 18 i m) := rfl
theorem o18_0 (a1 : ℚ) (c : Ctx) : (sys a1 c).out 18 0 = [(16, 0)] := rfl
theorem n19 (a1 : ℚ) (c : Ctx) (i : Nat) (m : Msg) : (sys a1 c).node (19, i) m = .obj (beh c (.bink .div 1000) 19 i m) := rfl
theorem o19_0 (a1 : ℚ) (c : Ctx) : (sys a1 c).out 19 0 = [(20, 1)] := rfl
theorem n20 (a1 : ℚ) (c : Ctx) (i : Nat) (m : Msg) : (sys a1 c).node (20, i) m = .obj (beh c (.bin .mul 0) 20 i m) := rfl
theorem o20_0 (a1 : ℚ) (c : Ctx) : (sys a1 c).out 20 0 = [(13, 0)] := rfl
theorem n21_0 (a1 : ℚ) (c : Ctx) (m : Msg) : (sys a1 c).node (21, 0) m = .fwd false [((22, 0), m)] := rfl
theorem n21_1 (a1 : ℚ) (c : Ctx) (m : Msg) : (sys a1 c).node (21, 1) m = .fwd false [((22, 1), m)] := rfl
theorem n22 (a1 : ℚ) (c : Ctx) (i : Nat) (m : Msg) : (sys a1 c).node (22, i) m = .obj (beh c (.var (.float a1)) 22 i m) := rfl
theorem o22_0 (a1 : ℚ) (c : Ctx) : (sys a1 c).out 22 0 = [(23, 0)] := rfl
theorem n23 (a1 : ℚ) (c : Ctx) (i : Nat) (m : Msg) : (sys a1 c).node (23, i) m = .fwd false [((20, 0), m)] := rfl
theorem n26 (a1 : ℚ) (c : Ctx) (i : Nat) (m : Msg) : (sys a1 c).node (26, i) m = .fwd false ([((14, 0), m)] ++ ([((21, 0), m)] ++ ([]))) := rfl
theorem n29 (a1 : ℚ) (c : Ctx) (i : Nat) (m : Msg) : (sys a1 c).node (29, i) m = .fwd false [((26, 0), m)] := rfl
theorem n30 (a1 : ℚ) (c : Ctx) (i : Nat) (m : Msg) : (sys a1 c).node (30, i) m = .obj (beh c (.probe 0) 30 i m) := rfl
theorem n31 (a1 : ℚ) (c : Ctx) (i : Nat) (m : Msg) : (sys a1 c).node (31, i) m = .obj (beh c (.none) 31 i m) := rfl
theorem o31_0 (a1 : ℚ) (c : Ctx) : (sys a1 c).out 31 0 = [(0, 0)] := rfl
theorem n32 (a1 : ℚ) (c : Ctx) (i : Nat) (m : Msg) : (sys a1 c).node (32, i) m = .obj (beh c (.none) 32 i m) := rfl
theorem o32_0 (a1 : ℚ) (c : Ctx) : (sys a1 c).out 32 0 = [(0, 1)] := rfl

attribute [lib_metro] n0_0 n0_1 n3 n4 o4_0 o4_1 o4_2 n5 o5_0 n6 n7 o7_0 n8_0 n10 n11 n12 n13 o13_0 n14_0 n16 n17 o17_0 n18 o18_0 n19 o19_0 n20 o20_0 n21_0 n21_1 n22 o22_0 n23 n26 n29 n30 n31 o31_0 n32 o32_0

end Verif.Lib.Metro
