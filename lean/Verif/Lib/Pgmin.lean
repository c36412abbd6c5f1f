import Verif.LibSim
/-!
The abstraction `[pgmin]`: transcription of hvcc/interpreters/pd2hv/libs/pd/pgmin.pd and of the library files it uses, made by
tools/pdlib.py.  Object `0` is the abstraction itself, its outlets are connected to `.probe`s.
-/
set_option linter.unusedVariables false
set_option linter.style.longLine false
set_option maxRecDepth 100000
namespace Verif.Lib.Pgmin
open Verif.Control (Dest Kind Cast Patch)

/-- the objects of hvcc/interpreters/pd2hv/libs/pd/pgmin.pd: kind, connections of each outlet, class -/
def nodes (a1 : ℚ) : List Node :=
  [⟨.graph [], [[(58, 0)], [(59, 0)]], .none⟩,  -- 0: pgmin
   ⟨.outlet 0 1, [], .none⟩,  -- 1: pgmin, object 0: outlet
   ⟨.graph [3], [[(43, 0), (31, 0)], [(36, 0)]], .none⟩,  -- 2: pgmin, object 1: unpack f f
   ⟨.inlet, [[(4, 0), (6, 0)]], .none⟩,  -- 3: pgmin, object 1: unpack f f
   ⟨.obj, [[(5, 0)], []], .slice 1 1⟩,  -- 4: pgmin, object 1: unpack f f
   ⟨.outlet 2 1, [], .none⟩,  -- 5: pgmin, object 1: unpack f f
   ⟨.obj, [[(7, 0)], []], .slice 0 1⟩,  -- 6: pgmin, object 1: unpack f f
   ⟨.outlet 2 0, [], .none⟩,  -- 7: pgmin, object 1: unpack f f
   ⟨.outlet 0 0, [], .none⟩,  -- 8: pgmin, object 2: outlet
   ⟨.graph [], [[(13, 0)]], .none⟩,  -- 9: pgmin, object 3: loadbang
   ⟨.recv, [[(11, 0)]], .none⟩,  -- 10: loadbang, object 0: r __hv_init \$1
   ⟨.outlet 9 0, [], .none⟩,  -- 11: loadbang, object 1: outlet
   ⟨.obj, [[(50, 0)]], .bink .eq 0⟩,  -- 12: pgmin, object 4: == 0
   ⟨.graph [14, 15], [[(12, 0), (42, 1)]], .none⟩,  -- 13: pgmin, object 5: i \$1
   ⟨.inlet, [[(17, 0)]], .none⟩,  -- 14: i, object 0: inlet
   ⟨.inlet, [[(17, 1)]], .none⟩,  -- 15: i, object 1: inlet
   ⟨.outlet 13 0, [], .none⟩,  -- 16: i, object 2: outlet
   ⟨.graph [18, 24], [[(16, 0)]], .none⟩,  -- 17: i, object 4: int \$1
   ⟨.inlet, [[(19, 0)]], .none⟩,  -- 18: int, object 0: inlet
   ⟨.graph [22, 23], [[(30, 0)]], .none⟩,  -- 19: int, object 1: f \$1
   ⟨.obj, [[(21, 0)]], .var (.float a1)⟩,  -- 20: f, object 1: pd @hv_obj __var \$1
   ⟨.outlet 19 0, [], .none⟩,  -- 21: f, object 2: outlet
   ⟨.inlet, [[(20, 0)]], .none⟩,  -- 22: f, object 3: inlet -->
   ⟨.inlet, [[(20, 1)]], .none⟩,  -- 23: f, object 4: inlet -->
   ⟨.inlet, [[(19, 1)]], .none⟩,  -- 24: int, object 2: inlet
   ⟨.outlet 17 0, [], .none⟩,  -- 25: int, object 3: outlet
   ⟨.obj, [[(29, 0)], [(28, 0)]], .ite a1⟩,  -- 26: int, object 4: pd @hv_obj if \$1
   ⟨.obj, [[(26, 1)]], .bink .gt 0⟩,  -- 27: int, object 5: > 0
   ⟨.obj, [[(25, 0)]], .un .floor⟩,  -- 28: int, object 6: pd @hv_obj __floor
   ⟨.obj, [[(25, 0)]], .un .ceil⟩,  -- 29: int, object 7: pd @hv_obj __ceil
   ⟨.seq [none, none], [[(26, 0)], [(27, 0)]], .none⟩,  -- 30: int, object 9: t a a
   ⟨.graph [32, 33], [[(57, 0)]], .none⟩,  -- 31: pgmin, object 6: spigot
   ⟨.inlet, [[(35, 0)]], .none⟩,  -- 32: spigot, object 0: inlet
   ⟨.inlet, [[(35, 1)]], .none⟩,  -- 33: spigot, object 1: inlet
   ⟨.outlet 31 0, [], .none⟩,  -- 34: spigot, object 2: outlet
   ⟨.obj, [[], [(34, 0)]], .ite 0⟩,  -- 35: spigot, object 4: pd @hv_obj if \$1
   ⟨.obj, [[(42, 0), (51, 0), (37, 0)]], .bink .add 1⟩,  -- 36: pgmin, object 7: + 1
   ⟨.graph [38, 39], [[(49, 0)]], .none⟩,  -- 37: pgmin, object 8: spigot
   ⟨.inlet, [[(41, 0)]], .none⟩,  -- 38: spigot, object 0: inlet
   ⟨.inlet, [[(41, 1)]], .none⟩,  -- 39: spigot, object 1: inlet
   ⟨.outlet 37 0, [], .none⟩,  -- 40: spigot, object 2: outlet
   ⟨.obj, [[], [(40, 0)]], .ite 0⟩,  -- 41: spigot, object 4: pd @hv_obj if \$1
   ⟨.obj, [[(48, 0)]], .bin .eq 0⟩,  -- 42: pgmin, object 9: ==
   ⟨.graph [44, 45], [[(57, 0)]], .none⟩,  -- 43: pgmin, object 10: spigot
   ⟨.inlet, [[(47, 0)]], .none⟩,  -- 44: spigot, object 0: inlet
   ⟨.inlet, [[(47, 1)]], .none⟩,  -- 45: spigot, object 1: inlet
   ⟨.outlet 43 0, [], .none⟩,  -- 46: spigot, object 2: outlet
   ⟨.obj, [[], [(46, 0)]], .ite 0⟩,  -- 47: spigot, object 4: pd @hv_obj if \$1
   ⟨.seq [some .float, some .float], [[(43, 1)], [(37, 1)]], .none⟩,  -- 48: pgmin, object 11: t f f
   ⟨.obj, [[(1, 0)]], .bink .max 1⟩,  -- 49: pgmin, object 12: max 1
   ⟨.seq [some .float, some .float], [[(31, 1)], [(51, 1)]], .none⟩,  -- 50: pgmin, object 13: t f f
   ⟨.graph [52, 53], [[(49, 0)]], .none⟩,  -- 51: pgmin, object 14: spigot
   ⟨.inlet, [[(55, 0)]], .none⟩,  -- 52: spigot, object 0: inlet
   ⟨.inlet, [[(55, 1)]], .none⟩,  -- 53: spigot, object 1: inlet
   ⟨.outlet 51 0, [], .none⟩,  -- 54: spigot, object 2: outlet
   ⟨.obj, [[], [(54, 0)]], .ite 0⟩,  -- 55: spigot, object 4: pd @hv_obj if \$1
   ⟨.recv, [[(2, 0)]], .none⟩,  -- 56: pgmin, object 15: r __hv_pgmin
   ⟨.obj, [[(8, 0)]], .bink .add 1⟩,  -- 57: pgmin, object 17: + 1
   ⟨.obj, [], .probe 0⟩,  -- 58: outlet 0 of the abstraction
   ⟨.obj, [], .probe 1⟩,  -- 59: outlet 1 of the abstraction
   ⟨.obj, [[(61, 0)]], .none⟩,  -- 60: what sends messages to __hv_pgmin: number 0
   ⟨.send 1, [[]], .none⟩]  -- 61: to __hv_pgmin

/-- receivers by name, in the order of the file: 0 = __hv_init, 1 = __hv_pgmin -/
def recvs : List (List Nat) := [[10], [56]]

/-- priorities of receivers, PdReceiveObject.py:96-100 -/
def prio : Nat → Int
  | 10 => 999
  | 56 => -2
  | _ => 0

/-- the receivers in the order in which they fire -/
def order : List (List Nat) := [[10], [56]]

/-- the object connected to inlet `i` -/
def drv (i : Nat) : Nat := 60 + i

/-- the abstraction as it is (`Verif.Control`: C45, C35) -/
def mach (a1 : ℚ) (c : Ctx) : Mach := source c (nodes a1) (recvsOf recvs) prio (recvsOf order)

/-- `M` is generated code -/
def Code (a1 : ℚ) (c : Ctx) (M : Mach) : Prop := Compiled c (nodes a1) (recvsOf recvs) prio M

/-- what it means -/
def sys (a1 : ℚ) (c : Ctx) : Control.Sys St Msg := (mach a1 c).sys

/-- kinds and connections -/
def shape : Shape :=
  [(.graph [], [[(58, 0)], [(59, 0)]]),
   (.outlet 0 1, []),
   (.graph [3], [[(43, 0), (31, 0)], [(36, 0)]]),
   (.inlet, [[(4, 0), (6, 0)]]),
   (.obj, [[(5, 0)], []]),
   (.outlet 2 1, []),
   (.obj, [[(7, 0)], []]),
   (.outlet 2 0, []),
   (.outlet 0 0, []),
   (.graph [], [[(13, 0)]]),
   (.recv, [[(11, 0)]]),
   (.outlet 9 0, []),
   (.obj, [[(50, 0)]]),
   (.graph [14, 15], [[(12, 0), (42, 1)]]),
   (.inlet, [[(17, 0)]]),
   (.inlet, [[(17, 1)]]),
   (.outlet 13 0, []),
   (.graph [18, 24], [[(16, 0)]]),
   (.inlet, [[(19, 0)]]),
   (.graph [22, 23], [[(30, 0)]]),
   (.obj, [[(21, 0)]]),
   (.outlet 19 0, []),
   (.inlet, [[(20, 0)]]),
   (.inlet, [[(20, 1)]]),
   (.inlet, [[(19, 1)]]),
   (.outlet 17 0, []),
   (.obj, [[(29, 0)], [(28, 0)]]),
   (.obj, [[(26, 1)]]),
   (.obj, [[(25, 0)]]),
   (.obj, [[(25, 0)]]),
   (.seq [none, none], [[(26, 0)], [(27, 0)]]),
   (.graph [32, 33], [[(57, 0)]]),
   (.inlet, [[(35, 0)]]),
   (.inlet, [[(35, 1)]]),
   (.outlet 31 0, []),
   (.obj, [[], [(34, 0)]]),
   (.obj, [[(42, 0), (51, 0), (37, 0)]]),
   (.graph [38, 39], [[(49, 0)]]),
   (.inlet, [[(41, 0)]]),
   (.inlet, [[(41, 1)]]),
   (.outlet 37 0, []),
   (.obj, [[], [(40, 0)]]),
   (.obj, [[(48, 0)]]),
   (.graph [44, 45], [[(57, 0)]]),
   (.inlet, [[(47, 0)]]),
   (.inlet, [[(47, 1)]]),
   (.outlet 43 0, []),
   (.obj, [[], [(46, 0)]]),
   (.seq [some .float, some .float], [[(43, 1)], [(37, 1)]]),
   (.obj, [[(1, 0)]]),
   (.seq [some .float, some .float], [[(31, 1)], [(51, 1)]]),
   (.graph [52, 53], [[(49, 0)]]),
   (.inlet, [[(55, 0)]]),
   (.inlet, [[(55, 1)]]),
   (.outlet 51 0, []),
   (.obj, [[], [(54, 0)]]),
   (.recv, [[(2, 0)]]),
   (.obj, [[(8, 0)]]),
   (.obj, []),
   (.obj, []),
   (.obj, [[(61, 0)]]),
   (.send 1, [[]])]

theorem shape_eq (a1 : ℚ) : shapeOf (nodes a1) = shape := rfl

theorem checked (a1 : ℚ) : check (shapeOf (nodes a1)) recvs order prio [0, 0, 0, 0, 0, 0, 0, 0, 0, 0, 0, 0, 0, 0, 0, 0, 0, 0, 0, 0, 0, 0, 0, 0, 0, 0, 0, 0, 0, 0, 1, 0, 0, 0, 0, 0, 0, 0, 0, 0, 0, 0, 0, 0, 0, 0, 0, 0, 1, 0, 1, 0, 0, 0, 0, 0, 0, 0, 0, 0, 0, 0] = true := by
  rw [shape_eq]
  decide +kernel

theorem classes (a1 : ℚ) : clsOK (nodes a1) = true := rfl

theorem drv_valid (a1 : ℚ) {i : Nat} (h : i < 1) (m : Msg) : (Control.Src.outlet (drv i) 0 m).Valid (mkPatch (nodes a1) (recvsOf recvs) prio) (nodes a1).length := by
  have : i = 0 := by omega
  rcases this with rfl <;> exact ⟨Nat.le_of_ble_eq_true rfl, rfl, Nat.le_of_ble_eq_true rfl⟩

/-- messages for the inlets there are -/
def Inlet : Ev → Prop
  | .ext _ i _ => i < 1
  | .tick => True

theorem driven (a1 : ℚ) {e : Ev} (h : Inlet e) : Driven (nodes a1) (recvsOf recvs) prio drv e := by
  cases e with
  | ext t i m => exact drv_valid a1 h
  | tick => trivial

theorem to_code {c : Ctx} {a1 : ℚ} {M : Mach} (hM : Code a1 c M) {tab : Nat → List ℚ} {Fits : Ev → Prop} (hf : ∀ e, Fits e → Inlet e) {σ : Type}
    {on : σ → Ev → σ} {x0 : σ} {Sim : σ → St → Prop}
    (h : Simulates (mach a1 c) drv (start c (nodes a1) tab) Fits on x0 Sim) :
    Simulates M drv (start c (nodes a1) tab) Fits on x0 (fun x s => Sim x s ∧ GoodQ (nodes a1) s) :=
  h.code (checked a1) (classes a1) hM fun e he => driven a1 (hf e he)

/-- it compiles -/
theorem code_exists (a1 : ℚ) (c : Ctx) : ∃ M, Code a1 c M := exists_compiled c (checked a1) (f := 20) (by rw [shape_eq]; decide +kernel)

/-! one lemma per object, for rewriting -/

theorem n1 (a1 : ℚ) (c : Ctx) (i : Nat) (m : Msg) : (sys a1 c).node (1, i) m = .fwd false [((59, 0), m)] := rfl
theorem n2_0 (a1 : ℚ) (c : Ctx) (m : Msg) : (sys a1 c).node (2, 0) m = .fwd false [((4, 0), m), ((6, 0), m)] := rfl
theorem n4 (a1 : ℚ) (c : Ctx) (i : Nat) (m : Msg) : (sys a1 c).node (4, i) m = .obj (beh c (.slice 1 1) 4 i m) := rfl
theorem o4_0 (a1 : ℚ) (c : Ctx) : (sys a1 c).out 4 0 = [(5, 0)] := rfl
theorem o4_1 (a1 : ℚ) (c : Ctx) : (sys a1 c).out 4 1 = [] := rfl
theorem n5 (a1 : ℚ) (c : Ctx) (i : Nat) (m : Msg) : (sys a1 c).node (5, i) m = .fwd false [((36, 0), m)] := rfl
theorem n6 (a1 : ℚ) (c : Ctx) (i : Nat) (m : Msg) : (sys a1 c).node (6, i) m = .obj (beh c (.slice 0 1) 6 i m) := rfl
theorem o6_0 (a1 : ℚ) (c : Ctx) : (sys a1 c).out 6 0 = [(7, 0)] := rfl
theorem o6_1 (a1 : ℚ) (c : Ctx) : (sys a1 c).out 6 1 = [] := rfl
theorem n7 (a1 : ℚ) (c : Ctx) (i : Nat) (m : Msg) : (sys a1 c).node (7, i) m = .fwd false [((43, 0), m), ((31, 0), m)] := rfl
theorem n8 (a1 : ℚ) (c : Ctx) (i : Nat) (m : Msg) : (sys a1 c).node (8, i) m = .fwd false [((58, 0), m)] := rfl
theorem n11 (a1 : ℚ) (c : Ctx) (i : Nat) (m : Msg) : (sys a1 c).node (11, i) m = .fwd false [((13, 0), m)] := rfl
theorem n12 (a1 : ℚ) (c : Ctx) (i : Nat) (m : Msg) : (sys a1 c).node (12, i) m = .obj (beh c (.bink .eq 0) 12 i m) := rfl
theorem o12_0 (a1 : ℚ) (c : Ctx) : (sys a1 c).out 12 0 = [(50, 0)] := rfl
theorem n13_0 (a1 : ℚ) (c : Ctx) (m : Msg) : (sys a1 c).node (13, 0) m = .fwd false [((17, 0), m)] := rfl
theorem n13_1 (a1 : ℚ) (c : Ctx) (m : Msg) : (sys a1 c).node (13, 1) m = .fwd false [((17, 1), m)] := rfl
theorem n16 (a1 : ℚ) (c : Ctx) (i : Nat) (m : Msg) : (sys a1 c).node (16, i) m = .fwd false [((12, 0), m), ((42, 1), m)] := rfl
theorem n17_0 (a1 : ℚ) (c : Ctx) (m : Msg) : (sys a1 c).node (17, 0) m = .fwd false [((19, 0), m)] := rfl
theorem n17_1 (a1 : ℚ) (c : Ctx) (m : Msg) : (sys a1 c).node (17, 1) m = .fwd false [((19, 1), m)] := rfl
theorem n19_0 (a1 : ℚ) (c : Ctx) (m : Msg) : (sys a1 c).node (19, 0) m = .fwd false [((20, 0), m)] := rfl
theorem n19_1 (a1 : ℚ) (c : Ctx) (m : Msg) : (sys a1 c).node (19, 1) m = .fwd false [((20, 1), m)] := rfl
theorem n20 (a1 : ℚ) (c : Ctx) (i : Nat) (m : Msg) : (sys a1 c).node (20, i) m = .obj (beh c (.var (.float a1)) 20 i m) := rfl
theorem o20_0 (a1 : ℚ) (c : Ctx) : (sys a1 c).out 20 0 = [(21, 0)] := rfl
theorem n21 (a1 : ℚ) (c : Ctx) (i : Nat) (m : Msg) : (sys a1 c).node (21, i) m = .fwd false [((30, 0), m)] := rfl
theorem n25 (a1 : ℚ) (c : Ctx) (i : Nat) (m : Msg) : (sys a1 c).node (25, i) m = .fwd false [((16, 0), m)] := rfl
theorem n26 (a1 : ℚ) (c : Ctx) (i : Nat) (m : Msg) : (sys a1 c).node (26, i) m = .obj (beh c (.ite a1) 26 i m) := rfl
theorem o26_0 (a1 : ℚ) (c : Ctx) : (sys a1 c).out 26 0 = [(29, 0)] := rfl
theorem o26_1 (a1 : ℚ) (c : Ctx) : (sys a1 c).out 26 1 = [(28, 0)] := rfl
theorem n27 (a1 : ℚ) (c : Ctx) (i : Nat) (m : Msg) : (sys a1 c).node (27, i) m = .obj (beh c (.bink .gt 0) 27 i m) := rfl
theorem o27_0 (a1 : ℚ) (c : Ctx) : (sys a1 c).out 27 0 = [(26, 1)] := rfl
theorem n28 (a1 : ℚ) (c : Ctx) (i : Nat) (m : Msg) : (sys a1 c).node (28, i) m = .obj (beh c (.un .floor) 28 i m) := rfl
theorem o28_0 (a1 : ℚ) (c : Ctx) : (sys a1 c).out 28 0 = [(25, 0)] := rfl
theorem n29 (a1 : ℚ) (c : Ctx) (i : Nat) (m : Msg) : (sys a1 c).node (29, i) m = .obj (beh c (.un .ceil) 29 i m) := rfl
theorem o29_0 (a1 : ℚ) (c : Ctx) : (sys a1 c).out 29 0 = [(25, 0)] := rfl
theorem n30 (a1 : ℚ) (c : Ctx) (i : Nat) (m : Msg) : (sys a1 c).node (30, i) m = .fwd false ([((27, 0), m)] ++ ([((26, 0), m)] ++ ([]))) := rfl
theorem n31_0 (a1 : ℚ) (c : Ctx) (m : Msg) : (sys a1 c).node (31, 0) m = .fwd false [((35, 0), m)] := rfl
theorem n31_1 (a1 : ℚ) (c : Ctx) (m : Msg) : (sys a1 c).node (31, 1) m = .fwd false [((35, 1), m)] := rfl
theorem n34 (a1 : ℚ) (c : Ctx) (i : Nat) (m : Msg) : (sys a1 c).node (34, i) m = .fwd false [((57, 0), m)] := rfl
theorem n35 (a1 : ℚ) (c : Ctx) (i : Nat) (m : Msg) : (sys a1 c).node (35, i) m = .obj (beh c (.ite 0) 35 i m) := rfl
theorem o35_0 (a1 : ℚ) (c : Ctx) : (sys a1 c).out 35 0 = [] := rfl
theorem o35_1 (a1 : ℚ) (c : Ctx) : (sys a1 c).out 35 1 = [(34, 0)] := rfl
theorem n36 (a1 : ℚ) (c : Ctx) (i : Nat) (m : Msg) : (sys a1 c).node (36, i) m = .obj (beh c (.bink .add 1) 36 i m) := rfl
theorem o36_0 (a1 : ℚ) (c : Ctx) : (sys a1 c).out 36 0 = [(42, 0), (51, 0), (37, 0)] := rfl
theorem n37_0 (a1 : ℚ) (c : Ctx) (m : Msg) : (sys a1 c).node (37, 0) m = .fwd false [((41, 0), m)] := rfl
theorem n37_1 (a1 : ℚ) (c : Ctx) (m : Msg) : (sys a1 c).node (37, 1) m = .fwd false [((41, 1), m)] := rfl
theorem n40 (a1 : ℚ) (c : Ctx) (i : Nat) (m : Msg) : (sys a1 c).node (40, i) m = .fwd false [((49, 0), m)] := rfl
theorem n41 (a1 : ℚ) (c : Ctx) (i : Nat) (m : Msg) : (sys a1 c).node (41, i) m = .obj (beh c (.ite 0) 41 i m) := rfl
theorem o41_0 (a1 : ℚ) (c : Ctx) : (sys a1 c).out 41 0 = [] := rfl
theorem o41_1 (a1 : ℚ) (c : Ctx) : (sys a1 c).out 41 1 = [(40, 0)] := rfl
theorem n42 (a1 : ℚ) (c : Ctx) (i : Nat) (m : Msg) : (sys a1 c).node (42, i) m = .obj (beh c (.bin .eq 0) 42 i m) := rfl
theorem o42_0 (a1 : ℚ) (c : Ctx) : (sys a1 c).out 42 0 = [(48, 0)] := rfl
theorem n43_0 (a1 : ℚ) (c : Ctx) (m : Msg) : (sys a1 c).node (43, 0) m = .fwd false [((47, 0), m)] := rfl
theorem n43_1 (a1 : ℚ) (c : Ctx) (m : Msg) : (sys a1 c).node (43, 1) m = .fwd false [((47, 1), m)] := rfl
theorem n46 (a1 : ℚ) (c : Ctx) (i : Nat) (m : Msg) : (sys a1 c).node (46, i) m = .fwd false [((57, 0), m)] := rfl
theorem n47 (a1 : ℚ) (c : Ctx) (i : Nat) (m : Msg) : (sys a1 c).node (47, i) m = .obj (beh c (.ite 0) 47 i m) := rfl
theorem o47_0 (a1 : ℚ) (c : Ctx) : (sys a1 c).out 47 0 = [] := rfl
theorem o47_1 (a1 : ℚ) (c : Ctx) : (sys a1 c).out 47 1 = [(46, 0)] := rfl
theorem n48 (a1 : ℚ) (c : Ctx) (i : Nat) (m : Msg) : (sys a1 c).node (48, i) m = .fwd false (castTo .float [(37, 1)] m ++ (castTo .float [(43, 1)] m ++ ([]))) := by rcases m with _ | ⟨_ | _ | _, _⟩ <;> rfl
theorem n49 (a1 : ℚ) (c : Ctx) (i : Nat) (m : Msg) : (sys a1 c).node (49, i) m = .obj (beh c (.bink .max 1) 49 i m) := rfl
theorem o49_0 (a1 : ℚ) (c : Ctx) : (sys a1 c).out 49 0 = [(1, 0)] := rfl
theorem n50 (a1 : ℚ) (c : Ctx) (i : Nat) (m : Msg) : (sys a1 c).node (50, i) m = .fwd false (castTo .float [(51, 1)] m ++ (castTo .float [(31, 1)] m ++ ([]))) := by rcases m with _ | ⟨_ | _ | _, _⟩ <;> rfl
theorem n51_0 (a1 : ℚ) (c : Ctx) (m : Msg) : (sys a1 c).node (51, 0) m = .fwd false [((55, 0), m)] := rfl
theorem n51_1 (a1 : ℚ) (c : Ctx) (m : Msg) : (sys a1 c).node (51, 1) m = .fwd false [((55, 1), m)] := rfl
theorem n54 (a1 : ℚ) (c : Ctx) (i : Nat) (m : Msg) : (sys a1 c).node (54, i) m = .fwd false [((49, 0), m)] := rfl
theorem n55 (a1 : ℚ) (c : Ctx) (i : Nat) (m : Msg) : (sys a1 c).node (55, i) m = .obj (beh c (.ite 0) 55 i m) := rfl
theorem o55_0 (a1 : ℚ) (c : Ctx) : (sys a1 c).out 55 0 = [] := rfl
theorem o55_1 (a1 : ℚ) (c : Ctx) : (sys a1 c).out 55 1 = [(54, 0)] := rfl
theorem n57 (a1 : ℚ) (c : Ctx) (i : Nat) (m : Msg) : (sys a1 c).node (57, i) m = .obj (beh c (.bink .add 1) 57 i m) := rfl
theorem o57_0 (a1 : ℚ) (c : Ctx) : (sys a1 c).out 57 0 = [(8, 0)] := rfl
theorem n58 (a1 : ℚ) (c : Ctx) (i : Nat) (m : Msg) : (sys a1 c).node (58, i) m = .obj (beh c (.probe 0) 58 i m) := rfl
theorem n59 (a1 : ℚ) (c : Ctx) (i : Nat) (m : Msg) : (sys a1 c).node (59, i) m = .obj (beh c (.probe 1) 59 i m) := rfl
theorem n60 (a1 : ℚ) (c : Ctx) (i : Nat) (m : Msg) : (sys a1 c).node (60, i) m = .obj (beh c (.none) 60 i m) := rfl
theorem o60_0 (a1 : ℚ) (c : Ctx) : (sys a1 c).out 60 0 = [(61, 0)] := rfl
theorem n61 (a1 : ℚ) (c : Ctx) (i : Nat) (m : Msg) : (sys a1 c).node (61, i) m = .fwd true [((2, 0), m)] := rfl

attribute [lib_pgmin] n1 n2_0 n4 o4_0 o4_1 n5 n6 o6_0 o6_1 n7 n8 n11 n12 o12_0 n13_0 n13_1 n16 n17_0 n17_1 n19_0 n19_1 n20 o20_0 n21 n25 n26 o26_0 o26_1 n27 o27_0 n28 o28_0 n29 o29_0 n30 n31_0 n31_1 n34 n35 o35_0 o35_1 n36 o36_0 n37_0 n37_1 n40 n41 o41_0 o41_1 n42 o42_0 n43_0 n43_1 n46 n47 o47_0 o47_1 n48 n49 o49_0 n50 n51_0 n51_1 n54 n55 o55_0 o55_1 n57 o57_0 n58 n59 n60 o60_0 n61

end Verif.Lib.Pgmin
