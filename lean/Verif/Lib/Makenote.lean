import Verif.LibSim
/-!
The abstraction `[makenote]`: transcription of hvcc/interpreters/pd2hv/libs/pd/makenote.pd and of the library files it uses, made by
tools/pdlib.py.  Object `0` is the abstraction itself, its outlets are connected to `.probe`s.
-/
set_option linter.unusedVariables false
set_option linter.style.longLine false
set_option maxRecDepth 100000
namespace Verif.Lib.Makenote
open Verif.Control (Dest Kind Cast Patch)

/-- the objects of hvcc/interpreters/pd2hv/libs/pd/makenote.pd: kind, connections of each outlet, class -/
def nodes (a1 : ℚ) (a2 : ℚ) : List Node :=
  [⟨.graph [1, 2, 3], [[(42, 0)], [(43, 0)]], .none⟩,  -- 0: makenote
   ⟨.inlet, [[(21, 0)]], .none⟩,  -- 1: makenote, object 0: inlet pitch
   ⟨.inlet, [[(26, 0)]], .none⟩,  -- 2: makenote, object 1: inlet velocity
   ⟨.inlet, [[(8, 0)]], .none⟩,  -- 3: makenote, object 2: inlet duration
   ⟨.obj, [[(19, 0)]], .msg [.lit (.float 0)]⟩,  -- 4: makenote, object 3: 0
   ⟨.graph [], [[(37, 0)]], .none⟩,  -- 5: makenote, object 4: loadbang
   ⟨.recv, [[(7, 0)]], .none⟩,  -- 6: loadbang, object 0: r __hv_init \$1
   ⟨.outlet 5 0, [], .none⟩,  -- 7: loadbang, object 1: outlet
   ⟨.graph [11, 12], [[(13, 0)]], .none⟩,  -- 8: makenote, object 5: f \$2
   ⟨.obj, [[(10, 0)]], .var (.float a2)⟩,  -- 9: f, object 1: pd @hv_obj __var \$1
   ⟨.outlet 8 0, [], .none⟩,  -- 10: f, object 2: outlet
   ⟨.inlet, [[(9, 0)]], .none⟩,  -- 11: f, object 3: inlet -->
   ⟨.inlet, [[(9, 1)]], .none⟩,  -- 12: f, object 4: inlet -->
   ⟨.obj, [[(14, 1)]], .bink .max 0⟩,  -- 13: makenote, object 6: max 0
   ⟨.graph [15, 16], [[(40, 0)]], .none⟩,  -- 14: makenote, object 7: pipe
   ⟨.inlet, [[(18, 0)]], .none⟩,  -- 15: pipe, object 0: inlet
   ⟨.inlet, [[(18, 1)]], .none⟩,  -- 16: pipe, object 1: inlet
   ⟨.outlet 14 0, [], .none⟩,  -- 17: pipe, object 2: outlet
   ⟨.obj, [[(17, 0)]], .delay 0⟩,  -- 18: pipe, object 4: pd @hv_obj __delay \$1
   ⟨.outlet 0 1, [], .none⟩,  -- 19: makenote, object 8: outlet velocity
   ⟨.outlet 0 0, [], .none⟩,  -- 20: makenote, object 9: outlet pitch
   ⟨.graph [22, 23], [[(39, 0)]], .none⟩,  -- 21: makenote, object 10: spigot 0
   ⟨.inlet, [[(25, 0)]], .none⟩,  -- 22: spigot, object 0: inlet
   ⟨.inlet, [[(25, 1)]], .none⟩,  -- 23: spigot, object 1: inlet
   ⟨.outlet 21 0, [], .none⟩,  -- 24: spigot, object 2: outlet
   ⟨.obj, [[], [(24, 0)]], .ite 0⟩,  -- 25: spigot, object 4: pd @hv_obj if \$1
   ⟨.graph [29, 30], [[(38, 0)]], .none⟩,  -- 26: makenote, object 11: f \$1
   ⟨.obj, [[(28, 0)]], .var (.float a1)⟩,  -- 27: f, object 1: pd @hv_obj __var \$1
   ⟨.outlet 26 0, [], .none⟩,  -- 28: f, object 2: outlet
   ⟨.inlet, [[(27, 0)]], .none⟩,  -- 29: f, object 3: inlet -->
   ⟨.inlet, [[(27, 1)]], .none⟩,  -- 30: f, object 4: inlet -->
   ⟨.graph [34, 35], [[(19, 0)]], .none⟩,  -- 31: makenote, object 12: f
   ⟨.obj, [[(33, 0)]], .var (.float 0)⟩,  -- 32: f, object 1: pd @hv_obj __var \$1
   ⟨.outlet 31 0, [], .none⟩,  -- 33: f, object 2: outlet
   ⟨.inlet, [[(32, 0)]], .none⟩,  -- 34: f, object 3: inlet -->
   ⟨.inlet, [[(32, 1)]], .none⟩,  -- 35: f, object 4: inlet -->
   ⟨.obj, [[(21, 1)]], .bink .neq 0⟩,  -- 36: makenote, object 13: != 0
   ⟨.seq [none, none], [[(26, 0)], [(8, 0)]], .none⟩,  -- 37: makenote, object 16: t a a
   ⟨.seq [none, none], [[(31, 1)], [(36, 0)]], .none⟩,  -- 38: makenote, object 17: t a a
   ⟨.seq [none, none], [[(14, 0)], [(41, 0)]], .none⟩,  -- 39: makenote, object 18: t a a
   ⟨.seq [none, none], [[(20, 0)], [(4, 0)]], .none⟩,  -- 40: makenote, object 19: t a a
   ⟨.seq [none, some .bang], [[(20, 0)], [(31, 0)]], .none⟩,  -- 41: makenote, object 20: t a b
   ⟨.obj, [], .probe 0⟩,  -- 42: outlet 0 of the abstraction
   ⟨.obj, [], .probe 1⟩,  -- 43: outlet 1 of the abstraction
   ⟨.obj, [[(0, 0)]], .none⟩,  -- 44: an object of the surrounding patch, connected to inlet 0
   ⟨.obj, [[(0, 1)]], .none⟩,  -- 45: an object of the surrounding patch, connected to inlet 1
   ⟨.obj, [[(0, 2)]], .none⟩]  -- 46: an object of the surrounding patch, connected to inlet 2

/-- receivers by name, in the order of the file: 0 = __hv_init -/
def recvs : List (List Nat) := [[6]]

/-- priorities of receivers, PdReceiveObject.py:96-100 -/
def prio : Nat → Int
  | 6 => 999
  | _ => 0

/-- the receivers in the order in which they fire -/
def order : List (List Nat) := [[6]]

/-- the object connected to inlet `i` -/
def drv (i : Nat) : Nat := 44 + i

/-- the abstraction as it is (`Verif.Control`: C45, C35) -/
def mach (a1 : ℚ) (a2 : ℚ) (c : Ctx) : Mach := source c (nodes a1 a2) (recvsOf recvs) prio (recvsOf order)

/-- `M` is generated code -/
def Code (a1 : ℚ) (a2 : ℚ) (c : Ctx) (M : Mach) : Prop := Compiled c (nodes a1 a2) (recvsOf recvs) prio M

/-- what it means -/
def sys (a1 : ℚ) (a2 : ℚ) (c : Ctx) : Control.Sys St Msg := (mach a1 a2 c).sys

/-- kinds and connections -/
def shape : Shape :=
  [(.graph [1, 2, 3], [[(42, 0)], [(43, 0)]]),
   (.inlet, [[(21, 0)]]),
   (.inlet, [[(26, 0)]]),
   (.inlet, [[(8, 0)]]),
   (.obj, [[(19, 0)]]),
   (.graph [], [[(37, 0)]]),
   (.recv, [[(7, 0)]]),
   (.outlet 5 0, []),
   (.graph [11, 12], [[(13, 0)]]),
   (.obj, [[(10, 0)]]),
   (.outlet 8 0, []),
   (.inlet, [[(9, 0)]]),
   (.inlet, [[(9, 1)]]),
   (.obj, [[(14, 1)]]),
   (.graph [15, 16], [[(40, 0)]]),
   (.inlet, [[(18, 0)]]),
   (.inlet, [[(18, 1)]]),
   (.outlet 14 0, []),
   (.obj, [[(17, 0)]]),
   (.outlet 0 1, []),
   (.outlet 0 0, []),
   (.graph [22, 23], [[(39, 0)]]),
   (.inlet, [[(25, 0)]]),
   (.inlet, [[(25, 1)]]),
   (.outlet 21 0, []),
   (.obj, [[], [(24, 0)]]),
   (.graph [29, 30], [[(38, 0)]]),
   (.obj, [[(28, 0)]]),
   (.outlet 26 0, []),
   (.inlet, [[(27, 0)]]),
   (.inlet, [[(27, 1)]]),
   (.graph [34, 35], [[(19, 0)]]),
   (.obj, [[(33, 0)]]),
   (.outlet 31 0, []),
   (.inlet, [[(32, 0)]]),
   (.inlet, [[(32, 1)]]),
   (.obj, [[(21, 1)]]),
   (.seq [none, none], [[(26, 0)], [(8, 0)]]),
   (.seq [none, none], [[(31, 1)], [(36, 0)]]),
   (.seq [none, none], [[(14, 0)], [(41, 0)]]),
   (.seq [none, none], [[(20, 0)], [(4, 0)]]),
   (.seq [none, some .bang], [[(20, 0)], [(31, 0)]]),
   (.obj, []),
   (.obj, []),
   (.obj, [[(0, 0)]]),
   (.obj, [[(0, 1)]]),
   (.obj, [[(0, 2)]])]

theorem shape_eq (a1 : ℚ) (a2 : ℚ) : shapeOf (nodes a1 a2) = shape := rfl

theorem checked (a1 : ℚ) (a2 : ℚ) : check (shapeOf (nodes a1 a2)) recvs order prio [0, 0, 0, 0, 0, 0, 0, 0, 0, 0, 0, 0, 0, 0, 0, 0, 0, 0, 0, 0, 0, 0, 0, 0, 0, 0, 0, 0, 0, 0, 0, 0, 0, 0, 0, 0, 0, 1, 1, 2, 1, 1, 0, 0, 0, 0, 0] = true := by
  rw [shape_eq]
  decide +kernel

theorem classes (a1 : ℚ) (a2 : ℚ) : clsOK (nodes a1 a2) = true := rfl

theorem drv_valid (a1 : ℚ) (a2 : ℚ) {i : Nat} (h : i < 3) (m : Msg) : (Control.Src.outlet (drv i) 0 m).Valid (mkPatch (nodes a1 a2) (recvsOf recvs) prio) (nodes a1 a2).length := by
  have : i = 0 ∨ i = 1 ∨ i = 2 := by omega
  rcases this with rfl | rfl | rfl <;> exact ⟨Nat.le_of_ble_eq_true rfl, rfl, Nat.le_of_ble_eq_true rfl⟩

/-- messages for the inlets there are -/
def Inlet : Ev → Prop
  | .ext _ i _ => i < 3
  | .tick => True

theorem driven (a1 : ℚ) (a2 : ℚ) {e : Ev} (h : Inlet e) : Driven (nodes a1 a2) (recvsOf recvs) prio drv e := by
  cases e with
  | ext t i m => exact drv_valid a1 a2 h
  | tick => trivial

theorem to_code {c : Ctx} {a1 : ℚ} {a2 : ℚ} {M : Mach} (hM : Code a1 a2 c M) {tab : Nat → List ℚ} {Fits : Ev → Prop} (hf : ∀ e, Fits e → Inlet e) {σ : Type}
    {on : σ → Ev → σ} {x0 : σ} {Sim : σ → St → Prop}
    (h : Simulates (mach a1 a2 c) drv (start c (nodes a1 a2) tab) Fits on x0 Sim) :
    Simulates M drv (start c (nodes a1 a2) tab) Fits on x0 (fun x s => Sim x s ∧ GoodQ (nodes a1 a2) s) :=
  h.code (checked a1 a2) (classes a1 a2) hM fun e he => driven a1 a2 (hf e he)

/-- it compiles -/
theorem code_exists (a1 : ℚ) (a2 : ℚ) (c : Ctx) : ∃ M, Code a1 a2 c M := exists_compiled c (checked a1 a2) (f := 20) (by rw [shape_eq]; decide +kernel)

/-! one lemma per object, for rewriting -/

theorem n0_0 (a1 : ℚ) (a2 : ℚ) (c : Ctx) (m : Msg) : (sys a1 a2 c).node (0, 0) m = .fwd false [((21, 0), m)] := rfl
theorem n0_1 (a1 : ℚ) (a2 : ℚ) (c : Ctx) (m : Msg) : (sys a1 a2 c).node (0, 1) m = .fwd false [((26, 0), m)] := rfl
theorem n0_2 (a1 : ℚ) (a2 : ℚ) (c : Ctx) (m : Msg) : (sys a1 a2 c).node (0, 2) m = .fwd false [((8, 0), m)] := rfl
theorem n4 (a1 : ℚ) (a2 : ℚ) (c : Ctx) (i : Nat) (m : Msg) : (sys a1 a2 c).node (4, i) m = .obj (beh c (.msg [.lit (.float 0)]) 4 i m) := rfl
theorem o4_0 (a1 : ℚ) (a2 : ℚ) (c : Ctx) : (sys a1 a2 c).out 4 0 = [(19, 0)] := rfl
theorem n7 (a1 : ℚ) (a2 : ℚ) (c : Ctx) (i : Nat) (m : Msg) : (sys a1 a2 c).node (7, i) m = .fwd false [((37, 0), m)] := rfl
theorem n8_0 (a1 : ℚ) (a2 : ℚ) (c : Ctx) (m : Msg) : (sys a1 a2 c).node (8, 0) m = .fwd false [((9, 0), m)] := rfl
theorem n8_1 (a1 : ℚ) (a2 : ℚ) (c : Ctx) (m : Msg) : (sys a1 a2 c).node (8, 1) m = .fwd false [((9, 1), m)] := rfl
theorem n9 (a1 : ℚ) (a2 : ℚ) (c : Ctx) (i : Nat) (m : Msg) : (sys a1 a2 c).node (9, i) m = .obj (beh c (.var (.float a2)) 9 i m) := rfl
theorem o9_0 (a1 : ℚ) (a2 : ℚ) (c : Ctx) : (sys a1 a2 c).out 9 0 = [(10, 0)] := rfl
theorem n10 (a1 : ℚ) (a2 : ℚ) (c : Ctx) (i : Nat) (m : Msg) : (sys a1 a2 c).node (10, i) m = .fwd false [((13, 0), m)] := rfl
theorem n13 (a1 : ℚ) (a2 : ℚ) (c : Ctx) (i : Nat) (m : Msg) : (sys a1 a2 c).node (13, i) m = .obj (beh c (.bink .max 0) 13 i m) := rfl
theorem o13_0 (a1 : ℚ) (a2 : ℚ) (c : Ctx) : (sys a1 a2 c).out 13 0 = [(14, 1)] := rfl
theorem n14_0 (a1 : ℚ) (a2 : ℚ) (c : Ctx) (m : Msg) : (sys a1 a2 c).node (14, 0) m = .fwd false [((18, 0), m)] := rfl
theorem n14_1 (a1 : ℚ) (a2 : ℚ) (c : Ctx) (m : Msg) : (sys a1 a2 c).node (14, 1) m = .fwd false [((18, 1), m)] := rfl
theorem n17 (a1 : ℚ) (a2 : ℚ) (c : Ctx) (i : Nat) (m : Msg) : (sys a1 a2 c).node (17, i) m = .fwd false [((40, 0), m)] := rfl
theorem n18 (a1 : ℚ) (a2 : ℚ) (c : Ctx) (i : Nat) (m : Msg) : (sys a1 a2 c).node (18, i) m = .obj (beh c (.delay 0) 18 i m) := rfl
theorem o18_0 (a1 : ℚ) (a2 : ℚ) (c : Ctx) : (sys a1 a2 c).out 18 0 = [(17, 0)] := rfl
theorem n19 (a1 : ℚ) (a2 : ℚ) (c : Ctx) (i : Nat) (m : Msg) : (sys a1 a2 c).node (19, i) m = .fwd false [((43, 0), m)] := rfl
theorem n20 (a1 : ℚ) (a2 : ℚ) (c : Ctx) (i : Nat) (m : Msg) : (sys a1 a2 c).node (20, i) m = .fwd false [((42, 0), m)] := rfl
theorem n21_0 (a1 : ℚ) (a2 : ℚ) (c : Ctx) (m : Msg) : (sys a1 a2 c).node (21, 0) m = .fwd false [((25, 0), m)] := rfl
theorem n21_1 (a1 : ℚ) (a2 : ℚ) (c : Ctx) (m : Msg) : (sys a1 a2 c).node (21, 1) m = .fwd false [((25, 1), m)] := rfl
theorem n24 (a1 : ℚ) (a2 : ℚ) (c : Ctx) (i : Nat) (m : Msg) : (sys a1 a2 c).node (24, i) m = .fwd false [((39, 0), m)] := rfl
theorem n25 (a1 : ℚ) (a2 : ℚ) (c : Ctx) (i : Nat) (m : Msg) : (sys a1 a2 c).node (25, i) m = .obj (beh c (.ite 0) 25 i m) := rfl
theorem o25_0 (a1 : ℚ) (a2 : ℚ) (c : Ctx) : (sys a1 a2 c).out 25 0 = [] := rfl
theorem o25_1 (a1 : ℚ) (a2 : ℚ) (c : Ctx) : (sys a1 a2 c).out 25 1 = [(24, 0)] := rfl
theorem n26_0 (a1 : ℚ) (a2 : ℚ) (c : Ctx) (m : Msg) : (sys a1 a2 c).node (26, 0) m = .fwd false [((27, 0), m)] := rfl
theorem n26_1 (a1 : ℚ) (a2 : ℚ) (c : Ctx) (m : Msg) : (sys a1 a2 c).node (26, 1) m = .fwd false [((27, 1), m)] := rfl
theorem n27 (a1 : ℚ) (a2 : ℚ) (c : Ctx) (i : Nat) (m : Msg) : (sys a1 a2 c).node (27, i) m = .obj (beh c (.var (.float a1)) 27 i m) := rfl
theorem o27_0 (a1 : ℚ) (a2 : ℚ) (c : Ctx) : (sys a1 a2 c).out 27 0 = [(28, 0)] := rfl
theorem n28 (a1 : ℚ) (a2 : ℚ) (c : Ctx) (i : Nat) (m : Msg) : (sys a1 a2 c).node (28, i) m = .fwd false [((38, 0), m)] := rfl
theorem n31_0 (a1 : ℚ) (a2 : ℚ) (c : Ctx) (m : Msg) : (sys a1 a2 c).node (31, 0) m = .fwd false [((32, 0), m)] := rfl
theorem n31_1 (a1 : ℚ) (a2 : ℚ) (c : Ctx) (m : Msg) : (sys a1 a2 c).node (31, 1) m = .fwd false [((32, 1), m)] := rfl
theorem n32 (a1 : ℚ) (a2 : ℚ) (c : Ctx) (i : Nat) (m : Msg) : (sys a1 a2 c).node (32, i) m = .obj (beh c (.var (.float 0)) 32 i m) := rfl
theorem o32_0 (a1 : ℚ) (a2 : ℚ) (c : Ctx) : (sys a1 a2 c).out 32 0 = [(33, 0)] := rfl
theorem n33 (a1 : ℚ) (a2 : ℚ) (c : Ctx) (i : Nat) (m : Msg) : (sys a1 a2 c).node (33, i) m = .fwd false [((19, 0), m)] := rfl
theorem n36 (a1 : ℚ) (a2 : ℚ) (c : Ctx) (i : Nat) (m : Msg) : (sys a1 a2 c).node (36, i) m = .obj (beh c (.bink .neq 0) 36 i m) := rfl
theorem o36_0 (a1 : ℚ) (a2 : ℚ) (c : Ctx) : (sys a1 a2 c).out 36 0 = [(21, 1)] := rfl
theorem n37 (a1 : ℚ) (a2 : ℚ) (c : Ctx) (i : Nat) (m : Msg) : (sys a1 a2 c).node (37, i) m = .fwd false ([((8, 0), m)] ++ ([((26, 0), m)] ++ ([]))) := rfl
theorem n38 (a1 : ℚ) (a2 : ℚ) (c : Ctx) (i : Nat) (m : Msg) : (sys a1 a2 c).node (38, i) m = .fwd false ([((36, 0), m)] ++ ([((31, 1), m)] ++ ([]))) := rfl
theorem n39 (a1 : ℚ) (a2 : ℚ) (c : Ctx) (i : Nat) (m : Msg) : (sys a1 a2 c).node (39, i) m = .fwd false ([((41, 0), m)] ++ ([((14, 0), m)] ++ ([]))) := rfl
theorem n40 (a1 : ℚ) (a2 : ℚ) (c : Ctx) (i : Nat) (m : Msg) : (sys a1 a2 c).node (40, i) m = .fwd false ([((4, 0), m)] ++ ([((20, 0), m)] ++ ([]))) := rfl
theorem n41 (a1 : ℚ) (a2 : ℚ) (c : Ctx) (i : Nat) (m : Msg) : (sys a1 a2 c).node (41, i) m = .fwd false (castTo .bang [(31, 0)] m ++ ([((20, 0), m)] ++ ([]))) := rfl
theorem n42 (a1 : ℚ) (a2 : ℚ) (c : Ctx) (i : Nat) (m : Msg) : (sys a1 a2 c).node (42, i) m = .obj (beh c (.probe 0) 42 i m) := rfl
theorem n43 (a1 : ℚ) (a2 : ℚ) (c : Ctx) (i : Nat) (m : Msg) : (sys a1 a2 c).node (43, i) m = .obj (beh c (.probe 1) 43 i m) := rfl
theorem n44 (a1 : ℚ) (a2 : ℚ) (c : Ctx) (i : Nat) (m : Msg) : (sys a1 a2 c).node (44, i) m = .obj (beh c (.none) 44 i m) := rfl
theorem o44_0 (a1 : ℚ) (a2 : ℚ) (c : Ctx) : (sys a1 a2 c).out 44 0 = [(0, 0)] := rfl
theorem n45 (a1 : ℚ) (a2 : ℚ) (c : Ctx) (i : Nat) (m : Msg) : (sys a1 a2 c).node (45, i) m = .obj (beh c (.none) 45 i m) := rfl
theorem o45_0 (a1 : ℚ) (a2 : ℚ) (c : Ctx) : (sys a1 a2 c).out 45 0 = [(0, 1)] := rfl
theorem n46 (a1 : ℚ) (a2 : ℚ) (c : Ctx) (i : Nat) (m : Msg) : (sys a1 a2 c).node (46, i) m = .obj (beh c (.none) 46 i m) := rfl
theorem o46_0 (a1 : ℚ) (a2 : ℚ) (c : Ctx) : (sys a1 a2 c).out 46 0 = [(0, 2)] := rfl

attribute [lib_makenote] n0_0 n0_1 n0_2 n4 o4_0 n7 n8_0 n8_1 n9 o9_0 n10 n13 o13_0 n14_0 n14_1 n17 n18 o18_0 n19 n20 n21_0 n21_1 n24 n25 o25_0 o25_1 n26_0 n26_1 n27 o27_0 n28 n31_0 n31_1 n32 o32_0 n33 n36 o36_0 n37 n38 n39 n40 n41 n42 n43 n44 o44_0 n45 o45_0 n46 o46_0

end Verif.Lib.Makenote
