import Verif.LibSim
/-!
The abstraction `[bendin]`: transcription of hvcc/interpreters/pd2hv/libs/pd/bendin.pd and of the library files it uses, made by
tools/pdlib.py.  Object `0` is the abstraction itself, its outlets are connected to `.probe`s.
-/
set_option linter.unusedVariables false
set_option linter.style.longLine false
set_option maxRecDepth 100000
namespace Verif.Lib.Bendin
open Verif.Control (Dest Kind Cast Patch)

/-- the objects of hvcc/interpreters/pd2hv/libs/pd/bendin.pd: kind, connections of each outlet, class -/
def nodes (a1 : ℚ) : List Node :=
  [⟨.graph [], [[(57, 0)], [(58, 0)]], .none⟩,  -- 0: bendin
   ⟨.outlet 0 1, [], .none⟩,  -- 1: bendin, object 0: outlet
   ⟨.graph [3], [[(44, 0), (32, 0)], [(37, 0)]], .none⟩,  -- 2: bendin, object 1: unpack f f
   ⟨.inlet, [[(4, 0), (6, 0)]], .none⟩,  -- 3: bendin, object 1: unpack f f
   ⟨.obj, [[(5, 0)], []], .slice 1 1⟩,  -- 4: bendin, object 1: unpack f f
   ⟨.outlet 2 1, [], .none⟩,  -- 5: bendin, object 1: unpack f f
   ⟨.obj, [[(7, 0)], []], .slice 0 1⟩,  -- 6: bendin, object 1: unpack f f
   ⟨.outlet 2 0, [], .none⟩,  -- 7: bendin, object 1: unpack f f
   ⟨.recv, [[(2, 0)]], .none⟩,  -- 8: bendin, object 2: r __hv_bendin
   ⟨.outlet 0 0, [], .none⟩,  -- 9: bendin, object 3: outlet
   ⟨.graph [], [[(14, 0)]], .none⟩,  -- 10: bendin, object 4: loadbang
   ⟨.recv, [[(12, 0)]], .none⟩,  -- 11: loadbang, object 0: r __hv_init \$1
   ⟨.outlet 10 0, [], .none⟩,  -- 12: loadbang, object 1: outlet
   ⟨.obj, [[(51, 0)]], .bink .eq 0⟩,  -- 13: bendin, object 5: == 0
   ⟨.graph [15, 16], [[(13, 0), (43, 1)]], .none⟩,  -- 14: bendin, object 6: i \$1
   ⟨.inlet, [[(18, 0)]], .none⟩,  -- 15: i, object 0: inlet
   ⟨.inlet, [[(18, 1)]], .none⟩,  -- 16: i, object 1: inlet
   ⟨.outlet 14 0, [], .none⟩,  -- 17: i, object 2: outlet
   ⟨.graph [19, 25], [[(17, 0)]], .none⟩,  -- 18: i, object 4: int \$1
   ⟨.inlet, [[(20, 0)]], .none⟩,  -- 19: int, object 0: inlet
   ⟨.graph [23, 24], [[(31, 0)]], .none⟩,  -- 20: int, object 1: f \$1
   ⟨.obj, [[(22, 0)]], .var (.float a1)⟩,  -- 21: f, object 1: pd @hv_obj __var \$1
   ⟨.outlet 20 0, [], .none⟩,  -- 22: f, object 2: outlet
   ⟨.inlet, [[(21, 0)]], .none⟩,  -- 23: f, object 3: inlet -->
   ⟨.inlet, [[(21, 1)]], .none⟩,  -- 24: f, object 4: inlet -->
   ⟨.inlet, [[(20, 1)]], .none⟩,  -- 25: int, object 2: inlet
   ⟨.outlet 18 0, [], .none⟩,  -- 26: int, object 3: outlet
   ⟨.obj, [[(30, 0)], [(29, 0)]], .ite a1⟩,  -- 27: int, object 4: pd @hv_obj if \$1
   ⟨.obj, [[(27, 1)]], .bink .gt 0⟩,  -- 28: int, object 5: > 0
   ⟨.obj, [[(26, 0)]], .un .floor⟩,  -- 29: int, object 6: pd @hv_obj __floor
   ⟨.obj, [[(26, 0)]], .un .ceil⟩,  -- 30: int, object 7: pd @hv_obj __ceil
   ⟨.seq [none, none], [[(27, 0)], [(28, 0)]], .none⟩,  -- 31: int, object 9: t a a
   ⟨.graph [33, 34], [[(9, 0)]], .none⟩,  -- 32: bendin, object 7: spigot
   ⟨.inlet, [[(36, 0)]], .none⟩,  -- 33: spigot, object 0: inlet
   ⟨.inlet, [[(36, 1)]], .none⟩,  -- 34: spigot, object 1: inlet
   ⟨.outlet 32 0, [], .none⟩,  -- 35: spigot, object 2: outlet
   ⟨.obj, [[], [(35, 0)]], .ite 0⟩,  -- 36: spigot, object 4: pd @hv_obj if \$1
   ⟨.obj, [[(43, 0), (52, 0), (38, 0)]], .bink .add 1⟩,  -- 37: bendin, object 8: + 1
   ⟨.graph [39, 40], [[(50, 0)]], .none⟩,  -- 38: bendin, object 9: spigot
   ⟨.inlet, [[(42, 0)]], .none⟩,  -- 39: spigot, object 0: inlet
   ⟨.inlet, [[(42, 1)]], .none⟩,  -- 40: spigot, object 1: inlet
   ⟨.outlet 38 0, [], .none⟩,  -- 41: spigot, object 2: outlet
   ⟨.obj, [[], [(41, 0)]], .ite 0⟩,  -- 42: spigot, object 4: pd @hv_obj if \$1
   ⟨.obj, [[(49, 0)]], .bin .eq 0⟩,  -- 43: bendin, object 10: ==
   ⟨.graph [45, 46], [[(9, 0)]], .none⟩,  -- 44: bendin, object 11: spigot
   ⟨.inlet, [[(48, 0)]], .none⟩,  -- 45: spigot, object 0: inlet
   ⟨.inlet, [[(48, 1)]], .none⟩,  -- 46: spigot, object 1: inlet
   ⟨.outlet 44 0, [], .none⟩,  -- 47: spigot, object 2: outlet
   ⟨.obj, [[], [(47, 0)]], .ite 0⟩,  -- 48: spigot, object 4: pd @hv_obj if \$1
   ⟨.seq [some .float, some .float], [[(44, 1)], [(38, 1)]], .none⟩,  -- 49: bendin, object 12: t f f
   ⟨.obj, [[(1, 0)]], .bink .max 1⟩,  -- 50: bendin, object 13: max 1
   ⟨.seq [some .float, some .float], [[(32, 1)], [(52, 1)]], .none⟩,  -- 51: bendin, object 15: t f f
   ⟨.graph [53, 54], [[(50, 0)]], .none⟩,  -- 52: bendin, object 16: spigot
   ⟨.inlet, [[(56, 0)]], .none⟩,  -- 53: spigot, object 0: inlet
   ⟨.inlet, [[(56, 1)]], .none⟩,  -- 54: spigot, object 1: inlet
   ⟨.outlet 52 0, [], .none⟩,  -- 55: spigot, object 2: outlet
   ⟨.obj, [[], [(55, 0)]], .ite 0⟩,  -- 56: spigot, object 4: pd @hv_obj if \$1
   ⟨.obj, [], .probe 0⟩,  -- 57: outlet 0 of the abstraction
   ⟨.obj, [], .probe 1⟩,  -- 58: outlet 1 of the abstraction
   ⟨.obj, [[(60, 0)]], .none⟩,  -- 59: what sends messages to __hv_bendin: number 0
   ⟨.send 1, [[]], .none⟩]  -- 60: to __hv_bendin

/-- receivers by name, in the order of the file: 0 = __hv_init, 1 = __hv_bendin -/
def recvs : List (List Nat) := [[11], [8]]

/-- priorities of receivers, PdReceiveObject.py:96-100 -/
def prio : Nat → Int
  | 8 => -1
  | 11 => 998
  | _ => 0

/-- the receivers in the order in which they fire -/
def order : List (List Nat) := [[11], [8]]

/-- the object connected to inlet `i` -/
def drv (i : Nat) : Nat := 59 + i

/-- the abstraction as it is (`Verif.Control`: C45, C35) -/
def mach (a1 : ℚ) (c : Ctx) : Mach := source c (nodes a1) (recvsOf recvs) prio (recvsOf order)

/-- `M` is generated code -/
def Code (a1 : ℚ) (c : Ctx) (M : Mach) : Prop := Compiled c (nodes a1) (recvsOf recvs) prio M

/-- what it means -/
def sys (a1 : ℚ) (c : Ctx) : Control.Sys St Msg := (mach a1 c).sys

/-- kinds and connections -/
def shape : Shape :=
  [(.graph [], [[(57, 0)], [(58, 0)]]),
   (.outlet 0 1, []),
   (.graph [3], [[(44, 0), (32, 0)], [(37, 0)]]),
   (.inlet, [[(4, 0), (6, 0)]]),
   (.obj, [[(5, 0)], []]),
   (.outlet 2 1, []),
   (.obj, [[(7, 0)], []]),
   (.outlet 2 0, []),
   (.recv, [[(2, 0)]]),
   (.outlet 0 0, []),
   (.graph [], [[(14, 0)]]),
   (.recv, [[(12, 0)]]),
   (.outlet 10 0, []),
   (.obj, [[(51, 0)]]),
   (.graph [15, 16], [[(13, 0), (43, 1)]]),
   (.inlet, [[(18, 0)]]),
   (.inlet, [[(18, 1)]]),
   (.outlet 14 0, []),
   (.graph [19, 25], [[(17, 0)]]),
   (.inlet, [[(20, 0)]]),
   (.graph [23, 24], [[(31, 0)]]),
   (.obj, [[(22, 0)]]),
   (.outlet 20 0, []),
   (.inlet, [[(21, 0)]]),
   (.inlet, [[(21, 1)]]),
   (.inlet, [[(20, 1)]]),
   (.outlet 18 0, []),
   (.obj, [[(30, 0)], [(29, 0)]]),
   (.obj, [[(27, 1)]]),
   (.obj, [[(26, 0)]]),
   (.obj, [[(26, 0)]]),
   (.seq [none, none], [[(27, 0)], [(28, 0)]]),
   (.graph [33, 34], [[(9, 0)]]),
   (.inlet, [[(36, 0)]]),
   (.inlet, [[(36, 1)]]),
   (.outlet 32 0, []),
   (.obj, [[], [(35, 0)]]),
   (.obj, [[(43, 0), (52, 0), (38, 0)]]),
   (.graph [39, 40], [[(50, 0)]]),
   (.inlet, [[(42, 0)]]),
   (.inlet, [[(42, 1)]]),
   (.outlet 38 0, []),
   (.obj, [[], [(41, 0)]]),
   (.obj, [[(49, 0)]]),
   (.graph [45, 46], [[(9, 0)]]),
   (.inlet, [[(48, 0)]]),
   (.inlet, [[(48, 1)]]),
   (.outlet 44 0, []),
   (.obj, [[], [(47, 0)]]),
   (.seq [some .float, some .float], [[(44, 1)], [(38, 1)]]),
   (.obj, [[(1, 0)]]),
   (.seq [some .float, some .float], [[(32, 1)], [(52, 1)]]),
   (.graph [53, 54], [[(50, 0)]]),
   (.inlet, [[(56, 0)]]),
   (.inlet, [[(56, 1)]]),
   (.outlet 52 0, []),
   (.obj, [[], [(55, 0)]]),
   (.obj, []),
   (.obj, []),
   (.obj, [[(60, 0)]]),
   (.send 1, [[]])]

theorem shape_eq (a1 : ℚ) : shapeOf (nodes a1) = shape := rfl

theorem checked (a1 : ℚ) : check (shapeOf (nodes a1)) recvs order prio [0, 0, 0, 0, 0, 0, 0, 0, 0, 0, 0, 0, 0, 0, 0, 0, 0, 0, 0, 0, 0, 0, 0, 0, 0, 0, 0, 0, 0, 0, 0, 1, 0, 0, 0, 0, 0, 0, 0, 0, 0, 0, 0, 0, 0, 0, 0, 0, 0, 1, 0, 1, 0, 0, 0, 0, 0, 0, 0, 0, 0] = true := by
  rw [shape_eq]
  decide +kernel

theorem classes (a1 : ℚ) : clsOK (nodes a1) = true := rfl

theorem drv_valid (a1 : ℚ) {i : Nat} (h : i < 1) (m : Msg) : (Control.Src.outlet (drv i) 0 m).Valid (mkPatch (nodes a1) (recvsOf recvs) prio) (nodes a1).length := by
  have : i = 0 := by omega
  rcases this with rfl <;> exact ⟨Nat.le_of_ble_eq_true rfl, rfl, Nat.le_of_ble_eq_true rfl⟩

/-- messages for the inlets there are -/
def Inlet : Ev → Prop
  | .ext _ i _ => i < 1
  | .tick => True

theorem driven (a1 : ℚ) {e : Ev} (h : Inlet e) : Driven (nodes a1) (recvsOf recvs) prio drv e := by
  cases e with
  | ext t i m => exact drv_valid a1 h
  | tick => trivial

theorem to_code {c : Ctx} {a1 : ℚ} {M : Mach} (hM : Code a1 c M) {tab : Nat → List ℚ} {Fits : Ev → Prop} (hf : ∀ e, Fits e → Inlet e) {σ : Type}
    {on : σ → Ev → σ} {x0 : σ} {Sim : σ → St → Prop}
    (h : Simulates (mach a1 c) drv (start c (nodes a1) tab) Fits on x0 Sim) :
    Simulates M drv (start c (nodes a1) tab) Fits on x0 (fun x s => Sim x s ∧ GoodQ (nodes a1) s) :=
  h.code (checked a1) (classes a1) hM fun e he => driven a1 (hf e he)

/-- it compiles -/
theorem code_exists (a1 : ℚ) (c : Ctx) : ∃ M, Code a1 c M := exists_compiled c (checked a1) (f := 20) (by rw [shape_eq]; decide +kernel)

/-! one lemma per object, for rewriting -/

theorem n1 (a1 : ℚ) (c : Ctx) (i : Nat) (m : Msg) : (sys a1 c).node (1, i) m = .fwd false [((58, 0), m)] := rfl
theorem n2_0 (a1 : ℚ) (c : Ctx) (m : Msg) : (sys a1 c).node (2, 0) m = .fwd false [((4, 0), m), ((6, 0), m)] := rfl
theorem n4 (a1 : ℚ) (c : Ctx) (i : Nat) (m : Msg) : (sys a1 c).node (4, i) m = .obj (beh c (.slice 1 1) 4 i m) := rfl
theorem o4_0 (a1 : ℚ) (c : Ctx) : (sys a1 c).out 4 0 = [(5, 0)] := rfl
theorem o4_1 (a1 : ℚ) (c : Ctx) : (sys a1 c).out 4 1 = [] := rfl
theorem n5 (a1 : ℚ) (c : Ctx) (i : Nat) (m : Msg) : (sys a1 c).node (5, i) m = .fwd false [((37, 0), m)] := rfl
theorem n6 (a1 : ℚ) (c : Ctx) (i : Nat) (m : Msg) : (sys a1 c).node (6, i) m = .obj (beh c (.slice 0 1) 6 i m) := rfl
theorem o6_0 (a1 : ℚ) (c : Ctx) : (sys a1 c).out 6 0 = [(7, 0)] := rfl
theorem o6_1 (a1 : ℚ) (c : Ctx) : (sys a1 c).out 6 1 = [] := rfl
theorem n7 (a1 : ℚ) (c : Ctx) (i : Nat) (m : Msg) : (sys a1 c).node (7, i) m = .fwd false [((44, 0), m), ((32, 0), m)] := rfl
theorem n9 (a1 : ℚ) (c : Ctx) (i : Nat) (m : Msg) : (sys a1 c).node (9, i) m = .fwd false [((57, 0), m)] := rfl
theorem n12 (a1 : ℚ) (c : Ctx) (i : Nat) (m : Msg) : (sys a1 c).node (12, i) m = .fwd false [((14, 0), m)] := rfl
theorem n13 (a1 : ℚ) (c : Ctx) (i : Nat) (m : Msg) : (sys a1 c).node (13, i) m = .obj (beh c (.bink .eq 0) 13 i m) := rfl
theorem o13_0 (a1 : ℚ) (c : Ctx) : (sys a1 c).out 13 0 = [(51, 0)] := rfl
theorem n14_0 (a1 : ℚ) (c : Ctx) (m : Msg) : (sys a1 c).node (14, 0) m = .fwd false [((18, 0), m)] := rfl
theorem n14_1 (a1 : ℚ) (c : Ctx) (m : Msg) : (sys a1 c).node (14, 1) m = .fwd false [((18, 1), m)] := rfl
theorem n17 (a1 : ℚ) (c : Ctx) (i : Nat) (m : Msg) : (sys a1 c).node (17, i) m = .fwd false [((13, 0), m), ((43, 1), m)] := rfl
theorem n18_0 (a1 : ℚ) (c : Ctx) (m : Msg) : (sys a1 c).node (18, 0) m = .fwd false [((20, 0), m)] := rfl
theorem n18_1 (a1 : ℚ) (c : Ctx) (m : Msg) : (sys a1 c).node (18, 1) m = .fwd false [((20, 1), m)] := rfl
theorem n20_0 (a1 : ℚ) (c : Ctx) (m : Msg) : (sys a1 c).node (20, 0) m = .fwd false [((21, 0), m)] := rfl
theorem n20_1 (a1 : ℚ) (c : Ctx) (m : Msg) : (sys a1 c).node (20, 1) m = .fwd false [((21, 1), m)] := rfl
theorem n21 (a1 : ℚ) (c : Ctx) (i : Nat) (m : Msg) : (sys a1 c).node (21, i) m = .obj (beh c (.var (.float a1)) 21 i m) := rfl
theorem o21_0 (a1 : ℚ) (c : Ctx) : (sys a1 c).out 21 0 = [(22, 0)] := rfl
theorem n22 (a1 : ℚ) (c : Ctx) (i : Nat) (m : Msg) : (sys a1 c).node (22, i) m = .fwd false [((31, 0), m)] := rfl
theorem n26 (a1 : ℚ) (c : Ctx) (i : Nat) (m : Msg) : (sys a1 c).node (26, i) m = .fwd false [((17, 0), m)] := rfl
theorem n27 (a1 : ℚ) (c : Ctx) (i : Nat) (m : Msg) : (sys a1 c).node (27, i) m = .obj (beh c (.ite a1) 27 i m) := rfl
theorem o27_0 (a1 : ℚ) (c : Ctx) : (sys a1 c).out 27 0 = [(30, 0)] := rfl
theorem o27_1 (a1 : ℚ) (c : Ctx) : (sys a1 c).out 27 1 = [(29, 0)] := rfl
theorem n28 (a1 : ℚ) (c : Ctx) (i : Nat) (m : Msg) : (sys a1 c).node (28, i) m = .obj (beh c (.bink .gt 0) 28 i m) := rfl
theorem o28_0 (a1 : ℚ) (c : Ctx) : (sys a1 c).out 28 0 = [(27, 1)] := rfl
theorem n29 (a1 : ℚ) (c : Ctx) (i : Nat) (m : Msg) : (sys a1 c).node (29, i) m = .obj (beh c (.un .floor) 29 i m) := rfl
theorem o29_0 (a1 : ℚ) (c : Ctx) : (sys a1 c).out 29 0 = [(26, 0)] := rfl
theorem n30 (a1 : ℚ) (c : Ctx) (i : Nat) (m : Msg) : (sys a1 c).node (30, i) m = .obj (beh c (.un .ceil) 30 i m) := rfl
theorem o30_0 (a1 : ℚ) (c : Ctx) : (sys a1 c).out 30 0 = [(26, 0)] := rfl
theorem n31 (a1 : ℚ) (c : Ctx) (i : Nat) (m : Msg) : (sys a1 c).node (31, i) m = .fwd false ([((28, 0), m)] ++ ([((27, 0), m)] ++ ([]))) := rfl
theorem n32_0 (a1 : ℚ) (c : Ctx) (m : Msg) : (sys a1 c).node (32, 0) m = .fwd false [((36, 0), m)] := rfl
theorem n32_1 (a1 : ℚ) (c : Ctx) (m : Msg) : (sys a1 c).node (32, 1) m = .fwd false [((36, 1), m)] := rfl
theorem n35 (a1 : ℚ) (c : Ctx) (i : Nat) (m : Msg) : (sys a1 c).node (35, i) m = .fwd false [((9, 0), m)] := rfl
theorem n36 (a1 : ℚ) (c : Ctx) (i : Nat) (m : Msg) : (sys a1 c).node (36, i) m = .obj (beh c (.ite 0) 36 i m) := rfl
theorem o36_0 (a1 : ℚ) (c : Ctx) : (sys a1 c).out 36 0 = [] := rfl
theorem o36_1 (a1 : ℚ) (c : Ctx) : (sys a1 c).out 36 1 = [(35, 0)] := rfl
theorem n37 (a1 : ℚ) (c : Ctx) (i : Nat) (m : Msg) : (sys a1 c).node (37, i) m = .obj (beh c (.bink .add 1) 37 i m) := rfl
theorem o37_0 (a1 : ℚ) (c : Ctx) : (sys a1 c).out 37 0 = [(43, 0), (52, 0), (38, 0)] := rfl
theorem n38_0 (a1 : ℚ) (c : Ctx) (m : Msg) : (sys a1 c).node (38, 0) m = .fwd false [((42, 0), m)] := rfl
theorem n38_1 (a1 : ℚ) (c : Ctx) (m : Msg) : (sys a1 c).node (38, 1) m = .fwd false [((42, 1), m)] := rfl
theorem n41 (a1 : ℚ) (c : Ctx) (i : Nat) (m : Msg) : (sys a1 c).node (41, i) m = .fwd false [((50, 0), m)] := rfl
theorem n42 (a1 : ℚ) (c : Ctx) (i : Nat) (m : Msg) : (sys a1 c).node (42, i) m = .obj (beh c (.ite 0) 42 i m) := rfl
theorem o42_0 (a1 : ℚ) (c : Ctx) : (sys a1 c).out 42 0 = [] := rfl
theorem o42_1 (a1 : ℚ) (c : Ctx) : (sys a1 c).out 42 1 = [(41, 0)] := rfl
theorem n43 (a1 : ℚ) (c : Ctx) (i : Nat) (m : Msg) : (sys a1 c).node (43, i) m = .obj (beh c (.bin .eq 0) 43 i m) := rfl
theorem o43_0 (a1 : ℚ) (c : Ctx) : (sys a1 c).out 43 0 = [(49, 0)] := rfl
theorem n44_0 (a1 : ℚ) (c : Ctx) (m : Msg) : (sys a1 c).node (44, 0) m = .fwd false [((48, 0), m)] := rfl
theorem n44_1 (a1 : ℚ) (c : Ctx) (m : Msg) : (sys a1 c).node (44, 1) m = .fwd false [((48, 1), m)] := rfl
theorem n47 (a1 : ℚ) (c : Ctx) (i : Nat) (m : Msg) : (sys a1 c).node (47, i) m = .fwd false [((9, 0), m)] := rfl
theorem n48 (a1 : ℚ) (c : Ctx) (i : Nat) (m : Msg) : (sys a1 c).node (48, i) m = .obj (beh c (.ite 0) 48 i m) := rfl
theorem o48_0 (a1 : ℚ) (c : Ctx) : (sys a1 c).out 48 0 = [] := rfl
theorem o48_1 (a1 : ℚ) (c : Ctx) : (sys a1 c).out 48 1 = [(47, 0)] := rfl
theorem n49 (a1 : ℚ) (c : Ctx) (i : Nat) (m : Msg) : (sys a1 c).node (49, i) m = .fwd false (castTo .float [(38, 1)] m ++ (castTo .float [(44, 1)] m ++ ([]))) := by rcases m with _ | ⟨_ | _ | _, _⟩ <;> rfl
theorem n50 (a1 : ℚ) (c : Ctx) (i : Nat) (m : Msg) : (sys a1 c).node (50, i) m = .obj (beh c (.bink .max 1) 50 i m) := rfl
theorem o50_0 (a1 : ℚ) (c : Ctx) : (sys a1 c).out 50 0 = [(1, 0)] := rfl
theorem n51 (a1 : ℚ) (c : Ctx) (i : Nat) (m : Msg) : (sys a1 c).node (51, i) m = .fwd false (castTo .float [(52, 1)] m ++ (castTo .float [(32, 1)] m ++ ([]))) := by rcases m with _ | ⟨_ | _ | _, _⟩ <;> rfl
theorem n52_0 (a1 : ℚ) (c : Ctx) (m : Msg) : (sys a1 c).node (52, 0) m = .fwd false [((56, 0), m)] := rfl
theorem n52_1 (a1 : ℚ) (c : Ctx) (m : Msg) : (sys a1 c).node (52, 1) m = .fwd false [((56, 1), m)] := rfl
theorem n55 (a1 : ℚ) (c : Ctx) (i : Nat) (m : Msg) : (sys a1 c).node (55, i) m = .fwd false [((50, 0), m)] := rfl
theorem n56 (a1 : ℚ) (c : Ctx) (i : Nat) (m : Msg) : (sys a1 c).node (56, i) m = .obj (beh c (.ite 0) 56 i m) := rfl
theorem o56_0 (a1 : ℚ) (c : Ctx) : (sys a1 c).out 56 0 = [] := rfl
theorem o56_1 (a1 : ℚ) (c : Ctx) : (sys a1 c).out 56 1 = [(55, 0)] := rfl
theorem n57 (a1 : ℚ) (c : Ctx) (i : Nat) (m : Msg) : (sys a1 c).node (57, i) m = .obj (beh c (.probe 0) 57 i m) := rfl
theorem n58 (a1 : ℚ) (c : Ctx) (i : Nat) (m : Msg) : (sys a1 c).node (58, i) m = .obj (beh c (.probe 1) 58 i m) := rfl
theorem n59 (a1 : ℚ) (c : Ctx) (i : Nat) (m : Msg) : (sys a1 c).node (59, i) m = .obj (beh c (.none) 59 i m) := rfl
theorem o59_0 (a1 : ℚ) (c : Ctx) : (sys a1 c).out 59 0 = [(60, 0)] := rfl
theorem n60 (a1 : ℚ) (c : Ctx) (i : Nat) (m : Msg) : (sys a1 c).node (60, i) m = .fwd true [((2, 0), m)] := rfl

attribute [lib_bendin] n1 n2_0 n4 o4_0 o4_1 n5 n6 o6_0 o6_1 n7 n9 n12 n13 o13_0 n14_0 n14_1 n17 n18_0 n18_1 n20_0 n20_1 n21 o21_0 n22 n26 n27 o27_0 o27_1 n28 o28_0 n29 o29_0 n30 o30_0 n31 n32_0 n32_1 n35 n36 o36_0 o36_1 n37 o37_0 n38_0 n38_1 n41 n42 o42_0 o42_1 n43 o43_0 n44_0 n44_1 n47 n48 o48_0 o48_1 n49 n50 o50_0 n51 n52_0 n52_1 n55 n56 o56_0 o56_1 n57 n58 n59 o59_0 n60

end Verif.Lib.Bendin
