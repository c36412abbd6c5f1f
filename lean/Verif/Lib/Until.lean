import Verif.LibSim
/-!
The abstraction `[until]`: transcription of hvcc/interpreters/pd2hv/libs/pd/until.pd and of the library files it uses, made by
tools/pdlib.py.  Object `0` is the abstraction itself, its outlets are connected to `.probe`s.
-/
set_option linter.unusedVariables false
set_option linter.style.longLine false
set_option maxRecDepth 100000
namespace Verif.Lib.Until
open Verif.Control (Dest Kind Cast Patch)

/-- the objects of hvcc/interpreters/pd2hv/libs/pd/until.pd: kind, connections of each outlet, class -/
def nodes : List Node :=
  [⟨.graph [1, 39], [[(58, 0)]], .none⟩,  -- 0: until
   ⟨.inlet, [[(41, 0)]], .none⟩,  -- 1: until, object 0: inlet
   ⟨.seq [some .float, some .float], [[(3, 0)], [(8, 0)]], .none⟩,  -- 2: until, object 1: t f f
   ⟨.graph [4, 5], [[(38, 0)]], .none⟩,  -- 3: until, object 2: spigot 0
   ⟨.inlet, [[(7, 0)]], .none⟩,  -- 4: spigot, object 0: inlet
   ⟨.inlet, [[(7, 1)]], .none⟩,  -- 5: spigot, object 1: inlet
   ⟨.outlet 3 0, [], .none⟩,  -- 6: spigot, object 2: outlet
   ⟨.obj, [[], [(6, 0)]], .ite 0⟩,  -- 7: spigot, object 4: pd @hv_obj if \$1
   ⟨.obj, [[(3, 1)]], .bin .lt 0⟩,  -- 8: until, object 3: <
   ⟨.graph [12, 13], [[(2, 0)]], .none⟩,  -- 9: until, object 4: f
   ⟨.obj, [[(11, 0)]], .var (.float 0)⟩,  -- 10: f, object 1: pd @hv_obj __var \$1
   ⟨.outlet 9 0, [], .none⟩,  -- 11: f, object 2: outlet
   ⟨.inlet, [[(10, 0)]], .none⟩,  -- 12: f, object 3: inlet -->
   ⟨.inlet, [[(10, 1)]], .none⟩,  -- 13: f, object 4: inlet -->
   ⟨.obj, [[(9, 0)]], .bink .add 1⟩,  -- 14: until, object 5: + 1
   ⟨.outlet 0 0, [], .none⟩,  -- 15: until, object 6: outlet
   ⟨.graph [17, 18], [[(48, 0)], [(57, 0)]], .none⟩,  -- 16: until, object 7: moses 1
   ⟨.inlet, [[(22, 0)]], .none⟩,  -- 17: moses, object 0: inlet
   ⟨.inlet, [[(21, 1)]], .none⟩,  -- 18: moses, object 1: inlet
   ⟨.outlet 16 0, [], .none⟩,  -- 19: moses, object 2: outlet
   ⟨.outlet 16 1, [], .none⟩,  -- 20: moses, object 3: outlet
   ⟨.obj, [[(23, 1)]], .bin .ge 1⟩,  -- 21: moses, object 4: >= \$1
   ⟨.seq [none, none], [[(23, 0)], [(21, 0)]], .none⟩,  -- 22: moses, object 6: t a a
   ⟨.obj, [[(19, 0)], [(20, 0)]], .ite 0⟩,  -- 23: moses, object 7: pd @hv_obj __if
   ⟨.graph [25, 31], [[(16, 0)]], .none⟩,  -- 24: until, object 8: int
   ⟨.inlet, [[(26, 0)]], .none⟩,  -- 25: int, object 0: inlet
   ⟨.graph [29, 30], [[(37, 0)]], .none⟩,  -- 26: int, object 1: f \$1
   ⟨.obj, [[(28, 0)]], .var (.float 0)⟩,  -- 27: f, object 1: pd @hv_obj __var \$1
   ⟨.outlet 26 0, [], .none⟩,  -- 28: f, object 2: outlet
   ⟨.inlet, [[(27, 0)]], .none⟩,  -- 29: f, object 3: inlet -->
   ⟨.inlet, [[(27, 1)]], .none⟩,  -- 30: f, object 4: inlet -->
   ⟨.inlet, [[(26, 1)]], .none⟩,  -- 31: int, object 2: inlet
   ⟨.outlet 24 0, [], .none⟩,  -- 32: int, object 3: outlet
   ⟨.obj, [[(36, 0)], [(35, 0)]], .ite 0⟩,  -- 33: int, object 4: pd @hv_obj if \$1
   ⟨.obj, [[(33, 1)]], .bink .gt 0⟩,  -- 34: int, object 5: > 0
   ⟨.obj, [[(32, 0)]], .un .floor⟩,  -- 35: int, object 6: pd @hv_obj __floor
   ⟨.obj, [[(32, 0)]], .un .ceil⟩,  -- 36: int, object 7: pd @hv_obj __ceil
   ⟨.seq [none, none], [[(33, 0)], [(34, 0)]], .none⟩,  -- 37: int, object 9: t a a
   ⟨.seq [some .float, some .bang], [[(43, 0)], [(15, 0)]], .none⟩,  -- 38: until, object 9: t f b
   ⟨.inlet, [[(40, 0)]], .none⟩,  -- 39: until, object 10: inlet
   ⟨.obj, [[(43, 1)]], .msg [.lit (.float 0)]⟩,  -- 40: until, object 11: 0
   ⟨.seq [some .float, some .bang], [[(24, 0)], [(42, 0)]], .none⟩,  -- 41: until, object 12: t f b
   ⟨.obj, [[(43, 1)]], .msg [.lit (.float 1)]⟩,  -- 42: until, object 13: 1
   ⟨.graph [44, 45], [[(14, 0)]], .none⟩,  -- 43: until, object 14: spigot 1
   ⟨.inlet, [[(47, 0)]], .none⟩,  -- 44: spigot, object 0: inlet
   ⟨.inlet, [[(47, 1)]], .none⟩,  -- 45: spigot, object 1: inlet
   ⟨.outlet 43 0, [], .none⟩,  -- 46: spigot, object 2: outlet
   ⟨.obj, [[], [(46, 0)]], .ite 1⟩,  -- 47: spigot, object 4: pd @hv_obj if \$1
   ⟨.obj, [[(49, 0)]], .msg [.lit (.sym "input"), .lit (.sym "needs"), .lit (.sym "to"), .lit (.sym "be"), .lit (.sym ">="), .lit (.float 1)]⟩,  -- 48: until, object 15: input needs to be >= 1
   ⟨.graph [51], [], .none⟩,  -- 49: until, object 16: print (heavy) until error
   ⟨.obj, [], .print⟩,  -- 50: print, object 0: pd @hv_obj print \$1
   ⟨.inlet, [[(50, 0)]], .none⟩,  -- 51: print, object 1: inlet
   ⟨.graph [55, 56], [[(9, 0)]], .none⟩,  -- 52: until, object 17: f 0
   ⟨.obj, [[(54, 0)]], .var (.float 0)⟩,  -- 53: f, object 1: pd @hv_obj __var \$1
   ⟨.outlet 52 0, [], .none⟩,  -- 54: f, object 2: outlet
   ⟨.inlet, [[(53, 0)]], .none⟩,  -- 55: f, object 3: inlet -->
   ⟨.inlet, [[(53, 1)]], .none⟩,  -- 56: f, object 4: inlet -->
   ⟨.seq [some .bang, some .float], [[(52, 0)], [(8, 1)]], .none⟩,  -- 57: until, object 18: t b f
   ⟨.obj, [], .probe 0⟩,  -- 58: outlet 0 of the abstraction
   ⟨.obj, [[(0, 0)]], .none⟩,  -- 59: an object of the surrounding patch, connected to inlet 0
   ⟨.obj, [[(0, 1)]], .none⟩]  -- 60: an object of the surrounding patch, connected to inlet 1

/-- receivers by name, in the order of the file: 0 = __hv_init -/
def recvs : List (List Nat) := [[]]

/-- priorities of receivers, PdReceiveObject.py:96-100 -/
def prio : Nat → Int
  | _ => 0

/-- the receivers in the order in which they fire -/
def order : List (List Nat) := [[]]

/-- the object connected to inlet `i` -/
def drv (i : Nat) : Nat := 59 + i

/-- the abstraction as it is (`Verif.Control`: C45, C35) -/
def mach (c : Ctx) : Mach := source c (nodes) (recvsOf recvs) prio (recvsOf order)

/-- `M` is generated code -/
def Code (c : Ctx) (M : Mach) : Prop := Compiled c (nodes) (recvsOf recvs) prio M

/-- what it means -/
def sys (c : Ctx) : Control.Sys St Msg := (mach c).sys

/-- kinds and connections -/
def shape : Shape :=
  [(.graph [1, 39], [[(58, 0)]]),
   (.inlet, [[(41, 0)]]),
   (.seq [some .float, some .float], [[(3, 0)], [(8, 0)]]),
   (.graph [4, 5], [[(38, 0)]]),
   (.inlet, [[(7, 0)]]),
   (.inlet, [[(7, 1)]]),
   (.outlet 3 0, []),
   (.obj, [[], [(6, 0)]]),
   (.obj, [[(3, 1)]]),
   (.graph [12, 13], [[(2, 0)]]),
   (.obj, [[(11, 0)]]),
   (.outlet 9 0, []),
   (.inlet, [[(10, 0)]]),
   (.inlet, [[(10, 1)]]),
   (.obj, [[(9, 0)]]),
   (.outlet 0 0, []),
   (.graph [17, 18], [[(48, 0)], [(57, 0)]]),
   (.inlet, [[(22, 0)]]),
   (.inlet, [[(21, 1)]]),
   (.outlet 16 0, []),
   (.outlet 16 1, []),
   (.obj, [[(23, 1)]]),
   (.seq [none, none], [[(23, 0)], [(21, 0)]]),
   (.obj, [[(19, 0)], [(20, 0)]]),
   (.graph [25, 31], [[(16, 0)]]),
   (.inlet, [[(26, 0)]]),
   (.graph [29, 30], [[(37, 0)]]),
   (.obj, [[(28, 0)]]),
   (.outlet 26 0, []),
   (.inlet, [[(27, 0)]]),
   (.inlet, [[(27, 1)]]),
   (.inlet, [[(26, 1)]]),
   (.outlet 24 0, []),
   (.obj, [[(36, 0)], [(35, 0)]]),
   (.obj, [[(33, 1)]]),
   (.obj, [[(32, 0)]]),
   (.obj, [[(32, 0)]]),
   (.seq [none, none], [[(33, 0)], [(34, 0)]]),
   (.seq [some .float, some .bang], [[(43, 0)], [(15, 0)]]),
   (.inlet, [[(40, 0)]]),
   (.obj, [[(43, 1)]]),
   (.seq [some .float, some .bang], [[(24, 0)], [(42, 0)]]),
   (.obj, [[(43, 1)]]),
   (.graph [44, 45], [[(14, 0)]]),
   (.inlet, [[(47, 0)]]),
   (.inlet, [[(47, 1)]]),
   (.outlet 43 0, []),
   (.obj, [[], [(46, 0)]]),
   (.obj, [[(49, 0)]]),
   (.graph [51], []),
   (.obj, []),
   (.inlet, [[(50, 0)]]),
   (.graph [55, 56], [[(9, 0)]]),
   (.obj, [[(54, 0)]]),
   (.outlet 52 0, []),
   (.inlet, [[(53, 0)]]),
   (.inlet, [[(53, 1)]]),
   (.seq [some .bang, some .float], [[(52, 0)], [(8, 1)]]),
   (.obj, []),
   (.obj, [[(0, 0)]]),
   (.obj, [[(0, 1)]])]

theorem shape_eq : shapeOf (nodes) = shape := rfl

theorem checked : check (shapeOf (nodes)) recvs order prio [0, 0, 1, 0, 0, 0, 0, 0, 0, 0, 0, 0, 0, 0, 0, 0, 0, 0, 0, 0, 0, 0, 1, 0, 0, 0, 0, 0, 0, 0, 0, 0, 0, 0, 0, 0, 0, 1, 1, 0, 0, 1, 0, 0, 0, 0, 0, 0, 0, 0, 0, 0, 0, 0, 0, 0, 0, 1, 0, 0, 0] = true := by
  rw [shape_eq]
  decide +kernel

theorem classes : clsOK (nodes) = true := rfl

theorem drv_valid {i : Nat} (h : i < 2) (m : Msg) : (Control.Src.outlet (drv i) 0 m).Valid (mkPatch (nodes) (recvsOf recvs) prio) (nodes).length := by
  have : i = 0 ∨ i = 1 := by omega
  rcases this with rfl | rfl <;> exact ⟨Nat.le_of_ble_eq_true rfl, rfl, Nat.le_of_ble_eq_true rfl⟩

/-- messages for the inlets there are -/
def Inlet : Ev → Prop
  | .ext _ i _ => i < 2
  | .tick => True

theorem driven {e : Ev} (h : Inlet e) : Driven (nodes) (recvsOf recvs) prio drv e := by
  cases e with
  | ext t i m => exact drv_valid h
  | tick => trivial

theorem to_code {c : Ctx} {M : Mach} (hM : Code c M) {tab : Nat → List ℚ} {Fits : Ev → Prop} (hf : ∀ e, Fits e → Inlet e) {σ : Type}
    {on : σ → Ev → σ} {x0 : σ} {Sim : σ → St → Prop}
    (h : Simulates (mach c) drv (start c (nodes) tab) Fits on x0 Sim) :
    Simulates M drv (start c (nodes) tab) Fits on x0 (fun x s => Sim x s ∧ GoodQ (nodes) s) :=
  h.code (checked) (classes) hM fun e he => driven (hf e he)

/-- it compiles -/
theorem code_exists (c : Ctx) : ∃ M, Code c M := exists_compiled c (checked) (f := 20) (by rw [shape_eq]; decide +kernel)

/-! one lemma per object, for rewriting -/

theorem n0_0 (c : Ctx) (m : Msg) : (sys c).node (0, 0) m = .fwd false [((41, 0), m)] := rfl
theorem n0_1 (c : Ctx) (m : Msg) : (sys c).node (0, 1) m = .fwd false [((40, 0), m)] := rfl
theorem n2 (c : Ctx) (i : Nat) (m : Msg) : (sys c).node (2, i) m = .fwd false (castTo .float [(8, 0)] m ++ (castTo .float [(3, 0)] m ++ ([]))) := by rcases m with _ | ⟨_ | _ | _, _⟩ <;> rfl
theorem n3_0 (c : Ctx) (m : Msg) : (sys c).node (3, 0) m = .fwd false [((7, 0), m)] := rfl
theorem n3_1 (c : Ctx) (m : Msg) : (sys c).node (3, 1) m = .fwd false [((7, 1), m)] := rfl
theorem n6 (c : Ctx) (i : Nat) (m : Msg) : (sys c).node (6, i) m = .fwd false [((38, 0), m)] := rfl
theorem n7 (c : Ctx) (i : Nat) (m : Msg) : (sys c).node (7, i) m = .obj (beh c (.ite 0) 7 i m) := rfl
theorem o7_0 (c : Ctx) : (sys c).out 7 0 = [] := rfl
theorem o7_1 (c : Ctx) : (sys c).out 7 1 = [(6, 0)] := rfl
theorem n8 (c : Ctx) (i : Nat) (m : Msg) : (sys c).node (8, i) m = .obj (beh c (.bin .lt 0) 8 i m) := rfl
theorem o8_0 (c : Ctx) : (sys c).out 8 0 = [(3, 1)] := rfl
theorem n9_0 (c : Ctx) (m : Msg) : (sys c).node (9, 0) m = .fwd false [((10, 0), m)] := rfl
theorem n9_1 (c : Ctx) (m : Msg) : (sys c).node (9, 1) m = .fwd false [((10, 1), m)] := rfl
theorem n10 (c : Ctx) (i : Nat) (m : Msg) : (sys c).node (10, i) m = .obj (beh c (.var (.float 0)) 10 i m) := rfl
theorem o10_0 (c : Ctx) : (sys c).out 10 0 = [(11, 0)] := rfl
theorem n11 (c : Ctx) (i : Nat) (m : Msg) : (sys c).node (11, i) m = .fwd false [((2, 0), m)] := rfl
theorem n14 (c : Ctx) (i : Nat) (m : Msg) : (sys c).node (14, i) m = .obj (beh c (.bink .add 1) 14 i m) := rfl
theorem o14_0 (c : Ctx) : (sys c).out 14 0 = [(9, 0)] := rfl
theorem n15 (c : Ctx) (i : Nat) (m : Msg) : (sys c).node (15, i) m = .fwd false [((58, 0), m)] := rfl
theorem n16_0 (c : Ctx) (m : Msg) : (sys c).node (16, 0) m = .fwd false [((22, 0), m)] := rfl
theorem n16_1 (c : Ctx) (m : Msg) : (sys c).node (16, 1) m = .fwd false [((21, 1), m)] := rfl
theorem n19 (c : Ctx) (i : Nat) (m : Msg) : (sys c).node (19, i) m = .fwd false [((48, 0), m)] := rfl
theorem n20 (c : Ctx) (i : Nat) (m : Msg) : (sys c).node (20, i) m = .fwd false [((57, 0), m)] := rfl
theorem n21 (c : Ctx) (i : Nat) (m : Msg) : (sys c).node (21, i) m = .obj (beh c (.bin .ge 1) 21 i m) := rfl
theorem o21_0 (c : Ctx) : (sys c).out 21 0 = [(23, 1)] := rfl
theorem n22 (c : Ctx) (i : Nat) (m : Msg) : (sys c).node (22, i) m = .fwd false ([((21, 0), m)] ++ ([((23, 0), m)] ++ ([]))) := rfl
theorem n23 (c : Ctx) (i : Nat) (m : Msg) : (sys c).node (23, i) m = .obj (beh c (.ite 0) 23 i m) := rfl
theorem o23_0 (c : Ctx) : (sys c).out 23 0 = [(19, 0)] := rfl
theorem o23_1 (c : Ctx) : (sys c).out 23 1 = [(20, 0)] := rfl
theorem n24_0 (c : Ctx) (m : Msg) : (sys c).node (24, 0) m = .fwd false [((26, 0), m)] := rfl
theorem n24_1 (c : Ctx) (m : Msg) : (sys c).node (24, 1) m = .fwd false [((26, 1), m)] := rfl
theorem n26_0 (c : Ctx) (m : Msg) : (sys c).node (26, 0) m = .fwd false [((27, 0), m)] := rfl
theorem n26_1 (c : Ctx) (m : Msg) : (sys c).node (26, 1) m = .fwd false [((27, 1), m)] := rfl
theorem n27 (c : Ctx) (i : Nat) (m : Msg) : (sys c).node (27, i) m = .obj (beh c (.var (.float 0)) 27 i m) := rfl
theorem o27_0 (c : Ctx) : (sys c).out 27 0 = [(28, 0)] := rfl
theorem n28 (c : Ctx) (i : Nat) (m : Msg) : (sys c).node (28, i) m = .fwd false [((37, 0), m)] := rfl
theorem n32 (c : Ctx) (i : Nat) (m : Msg) : (sys c).node (32, i) m = .fwd false [((16, 0), m)] := rfl
theorem n33 (c : Ctx) (i : Nat) (m : Msg) : (sys c).node (33, i) m = .obj (beh c (.ite 0) 33 i m) := rfl
theorem o33_0 (c : Ctx) : (sys c).out 33 0 = [(36, 0)] := rfl
theorem o33_1 (c : Ctx) : (sys c).out 33 1 = [(35, 0)] := rfl
theorem n34 (c : Ctx) (i : Nat) (m : Msg) : (sys c).node (34, i) m = .obj (beh c (.bink .gt 0) 34 i m) := rfl
theorem o34_0 (c : Ctx) : (sys c).out 34 0 = [(33, 1)] := rfl
theorem n35 (c : Ctx) (i : Nat) (m : Msg) : (sys c).node (35, i) m = .obj (beh c (.un .floor) 35 i m) := rfl
theorem o35_0 (c : Ctx) : (sys c).out 35 0 = [(32, 0)] := rfl
theorem n36 (c : Ctx) (i : Nat) (m : Msg) : (sys c).node (36, i) m = .obj (beh c (.un .ceil) 36 i m) := rfl
theorem o36_0 (c : Ctx) : (sys c).out 36 0 = [(32, 0)] := rfl
theorem n37 (c : Ctx) (i : Nat) (m : Msg) : (sys c).node (37, i) m = .fwd false ([((34, 0), m)] ++ ([((33, 0), m)] ++ ([]))) := rfl
theorem n38 (c : Ctx) (i : Nat) (m : Msg) : (sys c).node (38, i) m = .fwd false (castTo .bang [(15, 0)] m ++ (castTo .float [(43, 0)] m ++ ([]))) := by rcases m with _ | ⟨_ | _ | _, _⟩ <;> rfl
theorem n40 (c : Ctx) (i : Nat) (m : Msg) : (sys c).node (40, i) m = .obj (beh c (.msg [.lit (.float 0)]) 40 i m) := rfl
theorem o40_0 (c : Ctx) : (sys c).out 40 0 = [(43, 1)] := rfl
theorem n41 (c : Ctx) (i : Nat) (m : Msg) : (sys c).node (41, i) m = .fwd false (castTo .bang [(42, 0)] m ++ (castTo .float [(24, 0)] m ++ ([]))) := by rcases m with _ | ⟨_ | _ | _, _⟩ <;> rfl
theorem n42 (c : Ctx) (i : Nat) (m : Msg) : (sys c).node (42, i) m = .obj (beh c (.msg [.lit (.float 1)]) 42 i m) := rfl
theorem o42_0 (c : Ctx) : (sys c).out 42 0 = [(43, 1)] := rfl
theorem n43_0 (c : Ctx) (m : Msg) : (sys c).node (43, 0) m = .fwd false [((47, 0), m)] := rfl
theorem n43_1 (c : Ctx) (m : Msg) : (sys c).node (43, 1) m = .fwd false [((47, 1), m)] := rfl
theorem n46 (c : Ctx) (i : Nat) (m : Msg) : (sys c).node (46, i) m = .fwd false [((14, 0), m)] := rfl
theorem n47 (c : Ctx) (i : Nat) (m : Msg) : (sys c).node (47, i) m = .obj (beh c (.ite 1) 47 i m) := rfl
theorem o47_0 (c : Ctx) : (sys c).out 47 0 = [] := rfl
theorem o47_1 (c : Ctx) : (sys c).out 47 1 = [(46, 0)] := rfl
theorem n48 (c : Ctx) (i : Nat) (m : Msg) : (sys c).node (48, i) m = .obj (beh c (.msg [.lit (.sym "input"), .lit (.sym "needs"), .lit (.sym "to"), .lit (.sym "be"), .lit (.sym ">="), .lit (.float 1)]) 48 i m) := rfl
theorem o48_0 (c : Ctx) : (sys c).out 48 0 = [(49, 0)] := rfl
theorem n49_0 (c : Ctx) (m : Msg) : (sys c).node (49, 0) m = .fwd false [((50, 0), m)] := rfl
theorem n50 (c : Ctx) (i : Nat) (m : Msg) : (sys c).node (50, i) m = .obj (beh c (.print) 50 i m) := rfl
theorem n52_0 (c : Ctx) (m : Msg) : (sys c).node (52, 0) m = .fwd false [((53, 0), m)] := rfl
theorem n52_1 (c : Ctx) (m : Msg) : (sys c).node (52, 1) m = .fwd false [((53, 1), m)] := rfl
theorem n53 (c : Ctx) (i : Nat) (m : Msg) : (sys c).node (53, i) m = .obj (beh c (.var (.float 0)) 53 i m) := rfl
theorem o53_0 (c : Ctx) : (sys c).out 53 0 = [(54, 0)] := rfl
theorem n54 (c : Ctx) (i : Nat) (m : Msg) : (sys c).node (54, i) m = .fwd false [((9, 0), m)] := rfl
theorem n57 (c : Ctx) (i : Nat) (m : Msg) : (sys c).node (57, i) m = .fwd false (castTo .float [(8, 1)] m ++ (castTo .bang [(52, 0)] m ++ ([]))) := by rcases m with _ | ⟨_ | _ | _, _⟩ <;> rfl
theorem n58 (c : Ctx) (i : Nat) (m : Msg) : (sys c).node (58, i) m = .obj (beh c (.probe 0) 58 i m) := rfl
theorem n59 (c : Ctx) (i : Nat) (m : Msg) : (sys c).node (59, i) m = .obj (beh c (.none) 59 i m) := rfl
theorem o59_0 (c : Ctx) : (sys c).out 59 0 = [(0, 0)] := rfl
theorem n60 (c : Ctx) (i : Nat) (m : Msg) : (sys c).node (60, i) m = .obj (beh c (.none) 60 i m) := rfl
theorem o60_0 (c : Ctx) : (sys c).out 60 0 = [(0, 1)] := rfl

attribute [lib_until] n0_0 n0_1 n2 n3_0 n3_1 n6 n7 o7_0 o7_1 n8 o8_0 n9_0 n9_1 n10 o10_0 n11 n14 o14_0 n15 n16_0 n16_1 n19 n20 n21 o21_0 n22 n23 o23_0 o23_1 n24_0 n24_1 n26_0 n26_1 n27 o27_0 n28 n32 n33 o33_0 o33_1 n34 o34_0 n35 o35_0 n36 o36_0 n37 n38 n40 o40_0 n41 n42 o42_0 n43_0 n43_1 n46 n47 o47_0 o47_1 n48 o48_0 n49_0 n50 n52_0 n52_1 n53 o53_0 n54 n57 n58 n59 o59_0 n60 o60_0

end Verif.Lib.Until
