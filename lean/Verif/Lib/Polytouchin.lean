import Verif.LibSim
/-!
The abstraction `[polytouchin]`: transcription of hvcc/interpreters/pd2hv/libs/pd/polytouchin.pd and of the library files it uses, made by
tools/pdlib.py.  Object `0` is the abstraction itself, its outlets are connected to `.probe`s.
-/
set_option linter.unusedVariables false
set_option linter.style.longLine false
set_option maxRecDepth 100000
namespace Verif.Lib.Polytouchin
open Verif.Control (Dest Kind Cast Patch)

/-- the objects of hvcc/interpreters/pd2hv/libs/pd/polytouchin.pd: kind, connections of each outlet, class -/
def nodes (a1 : ℚ) : List Node :=
  [⟨.graph [], [[(60, 0)], [(61, 0)], [(62, 0)]], .none⟩,  -- 0: polytouchin
   ⟨.graph [2], [[(46, 0), (35, 0)], [(40, 0), (30, 0)], [(45, 0)]], .none⟩,  -- 1: polytouchin, object 0: unpack f f f
   ⟨.inlet, [[(3, 0), (5, 0), (7, 0)]], .none⟩,  -- 2: polytouchin, object 0: unpack f f f
   ⟨.obj, [[(4, 0)], []], .slice 2 1⟩,  -- 3: polytouchin, object 0: unpack f f f
   ⟨.outlet 1 2, [], .none⟩,  -- 4: polytouchin, object 0: unpack f f f
   ⟨.obj, [[(6, 0)], []], .slice 1 1⟩,  -- 5: polytouchin, object 0: unpack f f f
   ⟨.outlet 1 1, [], .none⟩,  -- 6: polytouchin, object 0: unpack f f f
   ⟨.obj, [[(8, 0)], []], .slice 0 1⟩,  -- 7: polytouchin, object 0: unpack f f f
   ⟨.outlet 1 0, [], .none⟩,  -- 8: polytouchin, object 0: unpack f f f
   ⟨.graph [], [[(12, 0)]], .none⟩,  -- 9: polytouchin, object 1: loadbang
   ⟨.recv, [[(11, 0)]], .none⟩,  -- 10: loadbang, object 0: r __hv_init \$1
   ⟨.outlet 9 0, [], .none⟩,  -- 11: loadbang, object 1: outlet
   ⟨.graph [13, 14], [[(51, 0), (52, 1)]], .none⟩,  -- 12: polytouchin, object 2: i \$1
   ⟨.inlet, [[(16, 0)]], .none⟩,  -- 13: i, object 0: inlet
   ⟨.inlet, [[(16, 1)]], .none⟩,  -- 14: i, object 1: inlet
   ⟨.outlet 12 0, [], .none⟩,  -- 15: i, object 2: outlet
   ⟨.graph [17, 23], [[(15, 0)]], .none⟩,  -- 16: i, object 4: int \$1
   ⟨.inlet, [[(18, 0)]], .none⟩,  -- 17: int, object 0: inlet
   ⟨.graph [21, 22], [[(29, 0)]], .none⟩,  -- 18: int, object 1: f \$1
   ⟨.obj, [[(20, 0)]], .var (.float a1)⟩,  -- 19: f, object 1: pd @hv_obj __var \$1
   ⟨.outlet 18 0, [], .none⟩,  -- 20: f, object 2: outlet
   ⟨.inlet, [[(19, 0)]], .none⟩,  -- 21: f, object 3: inlet -->
   ⟨.inlet, [[(19, 1)]], .none⟩,  -- 22: f, object 4: inlet -->
   ⟨.inlet, [[(18, 1)]], .none⟩,  -- 23: int, object 2: inlet
   ⟨.outlet 16 0, [], .none⟩,  -- 24: int, object 3: outlet
   ⟨.obj, [[(28, 0)], [(27, 0)]], .ite a1⟩,  -- 25: int, object 4: pd @hv_obj if \$1
   ⟨.obj, [[(25, 1)]], .bink .gt 0⟩,  -- 26: int, object 5: > 0
   ⟨.obj, [[(24, 0)]], .un .floor⟩,  -- 27: int, object 6: pd @hv_obj __floor
   ⟨.obj, [[(24, 0)]], .un .ceil⟩,  -- 28: int, object 7: pd @hv_obj __ceil
   ⟨.seq [none, none], [[(25, 0)], [(26, 0)]], .none⟩,  -- 29: int, object 9: t a a
   ⟨.graph [31, 32], [[(56, 0)]], .none⟩,  -- 30: polytouchin, object 3: spigot
   ⟨.inlet, [[(34, 0)]], .none⟩,  -- 31: spigot, object 0: inlet
   ⟨.inlet, [[(34, 1)]], .none⟩,  -- 32: spigot, object 1: inlet
   ⟨.outlet 30 0, [], .none⟩,  -- 33: spigot, object 2: outlet
   ⟨.obj, [[], [(33, 0)]], .ite 0⟩,  -- 34: spigot, object 4: pd @hv_obj if \$1
   ⟨.graph [36, 37], [[(55, 0)]], .none⟩,  -- 35: polytouchin, object 4: spigot
   ⟨.inlet, [[(39, 0)]], .none⟩,  -- 36: spigot, object 0: inlet
   ⟨.inlet, [[(39, 1)]], .none⟩,  -- 37: spigot, object 1: inlet
   ⟨.outlet 35 0, [], .none⟩,  -- 38: spigot, object 2: outlet
   ⟨.obj, [[], [(38, 0)]], .ite 0⟩,  -- 39: spigot, object 4: pd @hv_obj if \$1
   ⟨.graph [41, 42], [[(56, 0)]], .none⟩,  -- 40: polytouchin, object 5: spigot
   ⟨.inlet, [[(44, 0)]], .none⟩,  -- 41: spigot, object 0: inlet
   ⟨.inlet, [[(44, 1)]], .none⟩,  -- 42: spigot, object 1: inlet
   ⟨.outlet 40 0, [], .none⟩,  -- 43: spigot, object 2: outlet
   ⟨.obj, [[], [(43, 0)]], .ite 0⟩,  -- 44: spigot, object 4: pd @hv_obj if \$1
   ⟨.obj, [[(52, 0), (58, 0)]], .bink .add 1⟩,  -- 45: polytouchin, object 6: + 1
   ⟨.graph [47, 48], [[(55, 0)]], .none⟩,  -- 46: polytouchin, object 7: spigot
   ⟨.inlet, [[(50, 0)]], .none⟩,  -- 47: spigot, object 0: inlet
   ⟨.inlet, [[(50, 1)]], .none⟩,  -- 48: spigot, object 1: inlet
   ⟨.outlet 46 0, [], .none⟩,  -- 49: spigot, object 2: outlet
   ⟨.obj, [[], [(49, 0)]], .ite 0⟩,  -- 50: spigot, object 4: pd @hv_obj if \$1
   ⟨.obj, [[(54, 0)]], .bink .eq 0⟩,  -- 51: polytouchin, object 8: == 0
   ⟨.obj, [[(53, 0)]], .bin .eq 0⟩,  -- 52: polytouchin, object 9: ==
   ⟨.seq [some .float, some .float], [[(46, 1)], [(30, 1)]], .none⟩,  -- 53: polytouchin, object 10: t f f
   ⟨.seq [some .float, some .float], [[(35, 1)], [(40, 1)]], .none⟩,  -- 54: polytouchin, object 11: t f f
   ⟨.outlet 0 0, [], .none⟩,  -- 55: polytouchin, object 12: outlet
   ⟨.outlet 0 1, [], .none⟩,  -- 56: polytouchin, object 13: outlet
   ⟨.outlet 0 2, [], .none⟩,  -- 57: polytouchin, object 14: outlet
   ⟨.obj, [[(57, 0)]], .bink .max 1⟩,  -- 58: polytouchin, object 15: max 1
   ⟨.recv, [[(1, 0)]], .none⟩,  -- 59: polytouchin, object 16: r __hv_polytouchin
   ⟨.obj, [], .probe 0⟩,  -- 60: outlet 0 of the abstraction
   ⟨.obj, [], .probe 1⟩,  -- 61: outlet 1 of the abstraction
   ⟨.obj, [], .probe 2⟩,  -- 62: outlet 2 of the abstraction
   ⟨.obj, [[(64, 0)]], .none⟩,  -- 63: what sends messages to __hv_polytouchin: number 0
   ⟨.send 1, [[]], .none⟩]  -- 64: to __hv_polytouchin

/-- receivers by name, in the order of the file: 0 = __hv_init, 1 = __hv_polytouchin -/
def recvs : List (List Nat) := [[10], [59]]

/-- priorities of receivers, PdReceiveObject.py:96-100 -/
def prio : Nat → Int
  | 10 => 999
  | 59 => -2
  | _ => 0

/-- the receivers in the order in which they fire -/
def order : List (List Nat) := [[10], [59]]

/-- the object connected to inlet `i` -/
def drv (i : Nat) : Nat := 63 + i

/-- the abstraction as it is (`Verif.Control`: C45, C35) -/
def mach (a1 : ℚ) (c : Ctx) : Mach := source c (nodes a1) (recvsOf recvs) prio (recvsOf order)

/-- `M` is generated code -/
def Code (a1 : ℚ) (c : Ctx) (M : Mach) : Prop := Compiled c (nodes a1) (recvsOf recvs) prio M

/-- what it means -/
def sys (a1 : ℚ) (c : Ctx) : Control.Sys St Msg := (mach a1 c).sys

/-- kinds and connections -/
def shape : Shape :=
  [(.graph [], [[(60, 0)], [(61, 0)], [(62, 0)]]),
   (.graph [2], [[(46, 0), (35, 0)], [(40, 0), (30, 0)], [(45, 0)]]),
   (.inlet, [[(3, 0), (5, 0), (7, 0)]]),
   (.obj, [[(4, 0)], []]),
   (.outlet 1 2, []),
   (.obj, [[(6, 0)], []]),
   (.outlet 1 1, []),
   (.obj, [[(8, 0)], []]),
   (.outlet 1 0, []),
   (.graph [], [[(12, 0)]]),
   (.recv, [[(11, 0)]]),
   (.outlet 9 0, []),
   (.graph [13, 14], [[(51, 0), (52, 1)]]),
   (.inlet, [[(16, 0)]]),
   (.inlet, [[(16, 1)]]),
   (.outlet 12 0, []),
   (.graph [17, 23], [[(15, 0)]]),
   (.inlet, [[(18, 0)]]),
   (.graph [21, 22], [[(29, 0)]]),
   (.obj, [[(20, 0)]]),
   (.outlet 18 0, []),
   (.inlet, [[(19, 0)]]),
   (.inlet, [[(19, 1)]]),
   (.inlet, [[(18, 1)]]),
   (.outlet 16 0, []),
   (.obj, [[(28, 0)], [(27, 0)]]),
   (.obj, [[(25, 1)]]),
   (.obj, [[(24, 0)]]),
   (.obj, [[(24, 0)]]),
   (.seq [none, none], [[(25, 0)], [(26, 0)]]),
   (.graph [31, 32], [[(56, 0)]]),
   (.inlet, [[(34, 0)]]),
   (.inlet, [[(34, 1)]]),
   (.outlet 30 0, []),
   (.obj, [[], [(33, 0)]]),
   (.graph [36, 37], [[(55, 0)]]),
   (.inlet, [[(39, 0)]]),
   (.inlet, [[(39, 1)]]),
   (.outlet 35 0, []),
   (.obj, [[], [(38, 0)]]),
   (.graph [41, 42], [[(56, 0)]]),
   (.inlet, [[(44, 0)]]),
   (.inlet, [[(44, 1)]]),
   (.outlet 40 0, []),
   (.obj, [[], [(43, 0)]]),
   (.obj, [[(52, 0), (58, 0)]]),
   (.graph [47, 48], [[(55, 0)]]),
   (.inlet, [[(50, 0)]]),
   (.inlet, [[(50, 1)]]),
   (.outlet 46 0, []),
   (.obj, [[], [(49, 0)]]),
   (.obj, [[(54, 0)]]),
   (.obj, [[(53, 0)]]),
   (.seq [some .float, some .float], [[(46, 1)], [(30, 1)]]),
   (.seq [some .float, some .float], [[(35, 1)], [(40, 1)]]),
   (.outlet 0 0, []),
   (.outlet 0 1, []),
   (.outlet 0 2, []),
   (.obj, [[(57, 0)]]),
   (.recv, [[(1, 0)]]),
   (.obj, []),
   (.obj, []),
   (.obj, []),
   (.obj, [[(64, 0)]]),
   (.send 1, [[]])]

theorem shape_eq (a1 : ℚ) : shapeOf (nodes a1) = shape := rfl

theorem checked (a1 : ℚ) : check (shapeOf (nodes a1)) recvs order prio [0, 0, 0, 0, 0, 0, 0, 0, 0, 0, 0, 0, 0, 0, 0, 0, 0, 0, 0, 0, 0, 0, 0, 0, 0, 0, 0, 0, 0, 1, 0, 0, 0, 0, 0, 0, 0, 0, 0, 0, 0, 0, 0, 0, 0, 0, 0, 0, 0, 0, 0, 0, 0, 1, 1, 0, 0, 0, 0, 0, 0, 0, 0, 0, 0] = true := by
  rw [shape_eq]
  decide +kernel

theorem classes (a1 : ℚ) : clsOK (nodes a1) = true := rfl

theorem drv_valid (a1 : ℚ) {i : Nat} (h : i < 1) (m : Msg) : (Control.Src.outlet (drv i) 0 m).Valid (mkPatch (nodes a1) (recvsOf recvs) prio) (nodes a1).length := by
  have : i = 0 := by omega
  rcases this with rfl <;> exact ⟨Nat.le_of_ble_eq_true rfl, rfl, Nat.le_of_ble_eq_true rfl⟩

/-- messages for the inlets there are -/
def Inlet : Ev → Prop
  | .ext _ i _ => i < 1
  | .tick => True

theorem driven (a1 : ℚ) {e : Ev} (h : Inlet e) : Driven (nodes a1) (recvsOf recvs) prio drv e := by
  cases e with
  | ext t i m => exact drv_valid a1 h
  | tick => trivial

theorem to_code {c : Ctx} {a1 : ℚ} {M : Mach} (hM : Code a1 c M) {tab : Nat → List ℚ} {Fits : Ev → Prop} (hf : ∀ e, Fits e → Inlet e) {σ : Type}
    {on : σ → Ev → σ} {x0 : σ} {Sim : σ → St → Prop}
    (h : Simulates (mach a1 c) drv (start c (nodes a1) tab) Fits on x0 Sim) :
    Simulates M drv (start c (nodes a1) tab) Fits on x0 (fun x s => Sim x s ∧ GoodQ (nodes a1) s) :=
  h.code (checked a1) (classes a1) hM fun e he => driven a1 (hf e he)

/-- it compiles -/
theorem code_exists (a1 : ℚ) (c : Ctx) : ∃ M, Code a1 c M := exists_compiled c (checked a1) (f := 20) (by rw [shape_eq]; decide +kernel)

/-! one lemma per object, for rewriting -/

theorem n1_0 (a1 : ℚ) (c : Ctx) (m : Msg) : (sys a1 c).node (1, 0) m = .fwd false [((3, 0), m), ((5, 0), m), ((7, 0), m)] := rfl
theorem n3 (a1 : ℚ) (c : Ctx) (i : Nat) (m : Msg) : (sys a1 c).node (3, i) m = .obj (beh c (.slice 2 1) 3 i m) := rfl
theorem o3_0 (a1 : ℚ) (c : Ctx) : (sys a1 c).out 3 0 = [(4, 0)] := rfl
theorem o3_1 (a1 : ℚ) (c : Ctx) : (sys a1 c).out 3 1 = [] := rfl
theorem n4 (a1 : ℚ) (c : Ctx) (i : Nat) (m : Msg) : (sys a1 c).node (4, i) m = .fwd false [((45, 0), m)] := rfl
theorem n5 (a1 : ℚ) (c : Ctx) (i : Nat) (m : Msg) : (sys a1 c).node (5, i) m = .obj (beh c (.slice 1 1) 5 i m) := rfl
theorem o5_0 (a1 : ℚ) (c : Ctx) : (sys a1 c).out 5 0 = [(6, 0)] := rfl
theorem o5_1 (a1 : ℚ) (c : Ctx) : (sys a1 c).out 5 1 = [] := rfl
theorem n6 (a1 : ℚ) (c : Ctx) (i : Nat) (m : Msg) : (sys a1 c).node (6, i) m = .fwd false [((40, 0), m), ((30, 0), m)] := rfl
theorem n7 (a1 : ℚ) (c : Ctx) (i : Nat) (m : Msg) : (sys a1 c).node (7, i) m = .obj (beh c (.slice 0 1) 7 i m) := rfl
theorem o7_0 (a1 : ℚ) (c : Ctx) : (sys a1 c).out 7 0 = [(8, 0)] := rfl
theorem o7_1 (a1 : ℚ) (c : Ctx) : (sys a1 c).out 7 1 = [] := rfl
theorem n8 (a1 : ℚ) (c : Ctx) (i : Nat) (m : Msg) : (sys a1 c).node (8, i) m = .fwd false [((46, 0), m), ((35, 0), m)] := rfl
theorem n11 (a1 : ℚ) (c : Ctx) (i : Nat) (m : Msg) : (sys a1 c).node (11, i) m = .fwd false [((12, 0), m)] := rfl
theorem n12_0 (a1 : ℚ) (c : Ctx) (m : Msg) : (sys a1 c).node (12, 0) m = .fwd false [((16, 0), m)] := rfl
theorem n12_1 (a1 : ℚ) (c : Ctx) (m : Msg) : (sys a1 c).node (12, 1) m = .fwd false [((16, 1), m)] := rfl
theorem n15 (a1 : ℚ) (c : Ctx) (i : Nat) (m : Msg) : (sys a1 c).node (15, i) m = .fwd false [((51, 0), m), ((52, 1), m)] := rfl
theorem n16_0 (a1 : ℚ) (c : Ctx) (m : Msg) : (sys a1 c).node (16, 0) m = .fwd false [((18, 0), m)] := rfl
theorem n16_1 (a1 : ℚ) (c : Ctx) (m : Msg) : (sys a1 c).node (16, 1) m = .fwd false [((18, 1), m)] := rfl
theorem n18_0 (a1 : ℚ) (c : Ctx) (m : Msg) : (sys a1 c).node (18, 0) m = .fwd false [((19, 0), m)] := rfl
theorem n18_1 (a1 : ℚ) (c : Ctx) (m : Msg) : (sys a1 c).node (18, 1) m = .fwd false [((19, 1), m)] := rfl
theorem n19 (a1 : ℚ) (c : Ctx) (i : Nat) (m : Msg) : (sys a1 c).node (19, i) m = .obj (beh c (.var (.float a1)) 19 i m) := rfl
theorem o19_0 (a1 : ℚ) (c : Ctx) : (sys a1 c).out 19 0 = [(20, 0)] := rfl
theorem n20 (a1 : ℚ) (c : Ctx) (i : Nat) (m : Msg) : (sys a1 c).node (20, i) m = .fwd false [((29, 0), m)] := rfl
theorem n24 (a1 : ℚ) (c : Ctx) (i : Nat) (m : Msg) : (sys a1 c).node (24, i) m = .fwd false [((15, 0), m)] := rfl
theorem n25 (a1 : ℚ) (c : Ctx) (i : Nat) (m : Msg) : (sys a1 c).node (25, i) m = .obj (beh c (.ite a1) 25 i m) := rfl
theorem o25_0 (a1 : ℚ) (c : Ctx) : (sys a1 c).out 25 0 = [(28, 0)] := rfl
theorem o25_1 (a1 : ℚ) (c : Ctx) : (sys a1 c).out 25 1 = [(27, 0)] := rfl
theorem n26 (a1 : ℚ) (c : Ctx) (i : Nat) (m : Msg) : (sys a1 c).node (26, i) m = .obj (beh c (.bink .gt 0) 26 i m) := rfl
theorem o26_0 (a1 : ℚ) (c : Ctx) : (sys a1 c).out 26 0 = [(25, 1)] := rfl
theorem n27 (a1 : ℚ) (c : Ctx) (i : Nat) (m : Msg) : (sys a1 c).node (27, i) m = .obj (beh c (.un .floor) 27 i m) := rfl
theorem o27_0 (a1 : ℚ) (c : Ctx) : (sys a1 c).out 27 0 = [(24, 0)] := rfl
theorem n28 (a1 : ℚ) (c : Ctx) (i : Nat) (m : Msg) : (sys a1 c).node (28, i) m = .obj (beh c (.un .ceil) 28 i m) := rfl
theorem o28_0 (a1 : ℚ) (c : Ctx) : (sys a1 c).out 28 0 = [(24, 0)] := rfl
theorem n29 (a1 : ℚ) (c : Ctx) (i : Nat) (m : Msg) : (sys a1 c).node (29, i) m = .fwd false ([((26, 0), m)] ++ ([((25, 0), m)] ++ ([]))) := rfl
theorem n30_0 (a1 : ℚ) (c : Ctx) (m : Msg) : (sys a1 c).node (30, 0) m = .fwd false [((34, 0), m)] := rfl
theorem n30_1 (a1 : ℚ) (c : Ctx) (m : Msg) : (sys a1 c).node (30, 1) m = .fwd false [((34, 1), m)] := rfl
theorem n33 (a1 : ℚ) (c : Ctx) (i : Nat) (m : Msg) : (sys a1 c).node (33, i) m = .fwd false [((56, 0), m)] := rfl
theorem n34 (a1 : ℚ) (c : Ctx) (i : Nat) (m : Msg) : (sys a1 c).node (34, i) m = .obj (beh c (.ite 0) 34 i m) := rfl
theorem o34_0 (a1 : ℚ) (c : Ctx) : (sys a1 c).out 34 0 = [] := rfl
theorem o34_1 (a1 : ℚ) (c : Ctx) : (sys a1 c).out 34 1 = [(33, 0)] := rfl
theorem n35_0 (a1 : ℚ) (c : Ctx) (m : Msg) : (sys a1 c).node (35, 0) m = .fwd false [((39, 0), m)] := rfl
theorem n35_1 (a1 : ℚ) (c : Ctx) (m : Msg) : (sys a1 c).node (35, 1) m = .fwd false [((39, 1), m)] := rfl
theorem n38 (a1 : ℚ) (c : Ctx) (i : Nat) (m : Msg) : (sys a1 c).node (38, i) m = .fwd false [((55, 0), m)] := rfl
theorem n39 (a1 : ℚ) (c : Ctx) (i : Nat) (m : Msg) : (sys a1 c).node (39, i) m = .obj (beh c (.ite 0) 39 i m) := rfl
theorem o39_0 (a1 : ℚ) (c : Ctx) : (sys a1 c).out 39 0 = [] := rfl
theorem o39_1 (a1 : ℚ) (c : Ctx) : (sys a1 c).out 39 1 = [(38, 0)] := rfl
theorem n40_0 (a1 : ℚ) (c : Ctx) (m : Msg) : (sys a1 c).node (40, 0) m = .fwd false [((44, 0), m)] := rfl
theorem n40_1 (a1 : ℚ) (c : Ctx) (m : Msg) : (sys a1 c).node (40, 1) m = .fwd false [((44, 1), m)] := rfl
theorem n43 (a1 : ℚ) (c : Ctx) (i : Nat) (m : Msg) : (sys a1 c).node (43, i) m = .fwd false [((56, 0), m)] := rfl
theorem n44 (a1 : ℚ) (c : Ctx) (i : Nat) (m : Msg) : (sys a1 c).node (44, i) m = .obj (beh c (.ite 0) 44 i m) := rfl
theorem o44_0 (a1 : ℚ) (c : Ctx) : (sys a1 c).out 44 0 = [] := rfl
theorem o44_1 (a1 : ℚ) (c : Ctx) : (sys a1 c).out 44 1 = [(43, 0)] := rfl
theorem n45 (a1 : ℚ) (c : Ctx) (i : Nat) (m : Msg) : (sys a1 c).node (45, i) m = .obj (beh c (.bink .add 1) 45 i m) := rfl
theorem o45_0 (a1 : ℚ) (c : Ctx) : (sys a1 c).out 45 0 = [(52, 0), (58, 0)] := rfl
theorem n46_0 (a1 : ℚ) (c : Ctx) (m : Msg) : (sys a1 c).node (46, 0) m = .fwd false [((50, 0), m)] := rfl
theorem n46_1 (a1 : ℚ) (c : Ctx) (m : Msg) : (sys a1 c).node (46, 1) m = .fwd false [((50, 1), m)] := rfl
theorem n49 (a1 : ℚ) (c : Ctx) (i : Nat) (m : Msg) : (sys a1 c).node (49, i) m = .fwd false [((55, 0), m)] := rfl
theorem n50 (a1 : ℚ) (c : Ctx) (i : Nat) (m : Msg) : (sys a1 c).node (50, i) m = .obj (beh c (.ite 0) 50 i m) := rfl
theorem o50_0 (a1 : ℚ) (c : Ctx) : (sys a1 c).out 50 0 = [] := rfl
theorem o50_1 (a1 : ℚ) (c : Ctx) : (sys a1 c).out 50 1 = [(49, 0)] := rfl
theorem n51 (a1 : ℚ) (c : Ctx) (i : Nat) (m : Msg) : (sys a1 c).node (51, i) m = .obj (beh c (.bink .eq 0) 51 i m) := rfl
theorem o51_0 (a1 : ℚ) (c : Ctx) : (sys a1 c).out 51 0 = [(54, 0)] := rfl
theorem n52 (a1 : ℚ) (c : Ctx) (i : Nat) (m : Msg) : (sys a1 c).node (52, i) m = .obj (beh c (.bin .eq 0) 52 i m) := rfl
theorem o52_0 (a1 : ℚ) (c : Ctx) : (sys a1 c).out 52 0 = [(53, 0)] := rfl
theorem n53 (a1 : ℚ) (c : Ctx) (i : Nat) (m : Msg) : (sys a1 c).node (53, i) m = .fwd false (castTo .float [(30, 1)] m ++ (castTo .float [(46, 1)] m ++ ([]))) := by rcases m with _ | ⟨_ | _ | _, _⟩ <;> rfl
theorem n54 (a1 : ℚ) (c : Ctx) (i : Nat) (m : Msg) : (sys a1 c).node (54, i) m = .fwd false (castTo .float [(40, 1)] m ++ (castTo .float [(35, 1)] m ++ ([]))) := by rcases m with _ | ⟨_ | _ | _, _⟩ <;> rfl
theorem n55 (a1 : ℚ) (c : Ctx) (i : Nat) (m : Msg) : (sys a1 c).node (55, i) m = .fwd false [((60, 0), m)] := rfl
theorem n56 (a1 : ℚ) (c : Ctx) (i : Nat) (m : Msg) : (sys a1 c).node (56, i) m = .fwd false [((61, 0), m)] := rfl
theorem n57 (a1 : ℚ) (c : Ctx) (i : Nat) (m : Msg) : (sys a1 c).node (57, i) m = .fwd false [((62, 0), m)] := rfl
theorem n58 (a1 : ℚ) (c : Ctx) (i : Nat) (m : Msg) : (sys a1 c).node (58, i) m = .obj (beh c (.bink .max 1) 58 i m) := rfl
theorem o58_0 (a1 : ℚ) (c : Ctx) : (sys a1 c).out 58 0 = [(57, 0)] := rfl
theorem n60 (a1 : ℚ) (c : Ctx) (i : Nat) (m : Msg) : (sys a1 c).node (60, i) m = .obj (beh c (.probe 0) 60 i m) := rfl
theorem n61 (a1 : ℚ) (c : Ctx) (i : Nat) (m : Msg) : (sys a1 c).node (61, i) m = .obj (beh c (.probe 1) 61 i m) := rfl
theorem n62 (a1 : ℚ) (c : Ctx) (i : Nat) (m : Msg) : (sys a1 c).node (62, i) m = .obj (beh c (.probe 2) 62 i m) := rfl
theorem n63 (a1 : ℚ) (c : Ctx) (i : Nat) (m : Msg) : (sys a1 c).node (63, i) m = .obj (beh c (.none) 63 i m) := rfl
theorem o63_0 (a1 : ℚ) (c : Ctx) : (sys a1 c).out 63 0 = [(64, 0)] := rfl
theorem n64 (a1 : ℚ) (c : Ctx) (i : Nat) (m : Msg) : (sys a1 c).node (64, i) m = .fwd true [((1, 0), m)] := rfl

attribute [lib_polytouchin] n1_0 n3 o3_0 o3_1 n4 n5 o5_0 o5_1 n6 n7 o7_0 o7_1 n8 n11 n12_0 n12_1 n15 n16_0 n16_1 n18_0 n18_1 n19 o19_0 n20 n24 n25 o25_0 o25_1 n26 o26_0 n27 o27_0 n28 o28_0 n29 n30_0 n30_1 n33 n34 o34_0 o34_1 n35_0 n35_1 n38 n39 o39_0 o39_1 n40_0 n40_1 n43 n44 o44_0 o44_1 n45 o45_0 n46_0 n46_1 n49 n50 o50_0 o50_1 n51 o51_0 n52 o52_0 n53 n54 n55 n56 n57 n58 o58_0 n60 n61 n62 n63 o63_0 n64

end Verif.Lib.Polytouchin
