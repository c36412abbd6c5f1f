import Verif.LibSim
/-!
The abstraction `[stripnote]`: transcription of hvcc/interpreters/pd2hv/libs/pd/stripnote.pd and of the library files it uses, made by
tools/pdlib.py.  Object `0` is the abstraction itself, its outlets are connected to `.probe`s.
-/
set_option linter.unusedVariables false
set_option linter.style.longLine false
set_option maxRecDepth 100000
namespace Verif.Lib.Stripnote
open Verif.Control (Dest Kind Cast Patch)

/-- the objects of hvcc/interpreters/pd2hv/libs/pd/stripnote.pd: kind, connections of each outlet, class -/
def nodes : List Node :=
  [⟨.graph [1, 21], [[(50, 0)], [(51, 0)]], .none⟩,  -- 0: stripnote
   ⟨.inlet, [[(34, 0)]], .none⟩,  -- 1: stripnote, object 0: inlet
   ⟨.outlet 0 0, [], .none⟩,  -- 2: stripnote, object 1: outlet
   ⟨.graph [4], [[(10, 0)], [(27, 0)]], .none⟩,  -- 3: stripnote, object 2: unpack f f
   ⟨.inlet, [[(5, 0), (7, 0)]], .none⟩,  -- 4: stripnote, object 2: unpack f f
   ⟨.obj, [[(6, 0)], []], .slice 1 1⟩,  -- 5: stripnote, object 2: unpack f f
   ⟨.outlet 3 1, [], .none⟩,  -- 6: stripnote, object 2: unpack f f
   ⟨.obj, [[(8, 0)], []], .slice 0 1⟩,  -- 7: stripnote, object 2: unpack f f
   ⟨.outlet 3 0, [], .none⟩,  -- 8: stripnote, object 2: unpack f f
   ⟨.outlet 0 1, [], .none⟩,  -- 9: stripnote, object 3: outlet
   ⟨.graph [11, 12], [[(2, 0)]], .none⟩,  -- 10: stripnote, object 4: spigot
   ⟨.inlet, [[(14, 0)]], .none⟩,  -- 11: spigot, object 0: inlet
   ⟨.inlet, [[(14, 1)]], .none⟩,  -- 12: spigot, object 1: inlet
   ⟨.outlet 10 0, [], .none⟩,  -- 13: spigot, object 2: outlet
   ⟨.obj, [[], [(13, 0)]], .ite 0⟩,  -- 14: spigot, object 4: pd @hv_obj if \$1
   ⟨.obj, [[(10, 1), (16, 1)]], .bink .neq 0⟩,  -- 15: stripnote, object 5: != 0
   ⟨.graph [17, 18], [[(9, 0), (47, 1)]], .none⟩,  -- 16: stripnote, object 6: spigot
   ⟨.inlet, [[(20, 0)]], .none⟩,  -- 17: spigot, object 0: inlet
   ⟨.inlet, [[(20, 1)]], .none⟩,  -- 18: spigot, object 1: inlet
   ⟨.outlet 16 0, [], .none⟩,  -- 19: spigot, object 2: outlet
   ⟨.obj, [[], [(19, 0)]], .ite 0⟩,  -- 20: spigot, object 4: pd @hv_obj if \$1
   ⟨.inlet, [[(47, 1)]], .none⟩,  -- 21: stripnote, object 7: inlet
   ⟨.graph [23, 24], [[(3, 0)]], .none⟩,  -- 22: stripnote, object 8: spigot
   ⟨.inlet, [[(26, 0)]], .none⟩,  -- 23: spigot, object 0: inlet
   ⟨.inlet, [[(26, 1)]], .none⟩,  -- 24: spigot, object 1: inlet
   ⟨.outlet 22 0, [], .none⟩,  -- 25: spigot, object 2: outlet
   ⟨.obj, [[], [(25, 0)]], .ite 0⟩,  -- 26: spigot, object 4: pd @hv_obj if \$1
   ⟨.seq [some .float, some .float], [[(16, 0)], [(15, 0)]], .none⟩,  -- 27: stripnote, object 9: t f f
   ⟨.graph [29], [[(48, 0)], [(41, 0)]], .none⟩,  -- 28: stripnote, object 10: unpack f f
   ⟨.inlet, [[(30, 0), (32, 0)]], .none⟩,  -- 29: stripnote, object 10: unpack f f
   ⟨.obj, [[(31, 0)], []], .slice 1 1⟩,  -- 30: stripnote, object 10: unpack f f
   ⟨.outlet 28 1, [], .none⟩,  -- 31: stripnote, object 10: unpack f f
   ⟨.obj, [[(33, 0)], []], .slice 0 1⟩,  -- 32: stripnote, object 10: unpack f f
   ⟨.outlet 28 0, [], .none⟩,  -- 33: stripnote, object 10: unpack f f
   ⟨.seq [none, none], [[(42, 0)], [(28, 0)]], .none⟩,  -- 34: stripnote, object 11: t a a
   ⟨.graph [38, 39], [[(42, 1), (49, 0)]], .none⟩,  -- 35: stripnote, object 12: f
   ⟨.obj, [[(37, 0)]], .var (.float 0)⟩,  -- 36: f, object 1: pd @hv_obj __var \$1
   ⟨.outlet 35 0, [], .none⟩,  -- 37: f, object 2: outlet
   ⟨.inlet, [[(36, 0)]], .none⟩,  -- 38: f, object 3: inlet -->
   ⟨.inlet, [[(36, 1)]], .none⟩,  -- 39: f, object 4: inlet -->
   ⟨.obj, [[(35, 1)]], .msg [.lit (.float 0)]⟩,  -- 40: stripnote, object 13: 0
   ⟨.obj, [[(35, 1)]], .msg [.lit (.float 1)]⟩,  -- 41: stripnote, object 14: 1
   ⟨.graph [43, 44], [[(3, 0)]], .none⟩,  -- 42: stripnote, object 15: spigot
   ⟨.inlet, [[(46, 0)]], .none⟩,  -- 43: spigot, object 0: inlet
   ⟨.inlet, [[(46, 1)]], .none⟩,  -- 44: spigot, object 1: inlet
   ⟨.outlet 42 0, [], .none⟩,  -- 45: spigot, object 2: outlet
   ⟨.obj, [[], [(45, 0)]], .ite 0⟩,  -- 46: spigot, object 4: pd @hv_obj if \$1
   ⟨.obj, [[(22, 0)]], .pack [0, 0]⟩,  -- 47: stripnote, object 16: pack f f
   ⟨.seq [some .bang, some .float, some .bang], [[(40, 0)], [(47, 0)], [(35, 0)]], .none⟩,  -- 48: stripnote, object 17: t b f b
   ⟨.obj, [[(22, 1)]], .bink .eq 0⟩,  -- 49: stripnote, object 18: == 0
   ⟨.obj, [], .probe 0⟩,  -- 50: outlet 0 of the abstraction
   ⟨.obj, [], .probe 1⟩,  -- 51: outlet 1 of the abstraction
   ⟨.obj, [[(0, 0)]], .none⟩,  -- 52: an object of the surrounding patch, connected to inlet 0
   ⟨.obj, [[(0, 1)]], .none⟩]  -- 53: an object of the surrounding patch, connected to inlet 1

/-- receivers by name, in the order of the file: 0 = __hv_init -/
def recvs : List (List Nat) := [[]]

/-- priorities of receivers, PdReceiveObject.py:96-100 -/
def prio : Nat → Int
  | _ => 0

/-- the receivers in the order in which they fire -/
def order : List (List Nat) := [[]]

/-- the object connected to inlet `i` -/
def drv (i : Nat) : Nat := 52 + i

/-- the abstraction as it is (`Verif.Control`: C45, C35) -/
def mach (c : Ctx) : Mach := source c (nodes) (recvsOf recvs) prio (recvsOf order)

/-- `M` is generated code -/
def Code (c : Ctx) (M : Mach) : Prop := Compiled c (nodes) (recvsOf recvs) prio M

/-- what it means -/
def sys (c : Ctx) : Control.Sys St Msg := (mach c).sys

/-- kinds and connections -/
def shape : Shape :=
  [(.graph [1, 21], [[(50, 0)], [(51, 0)]]),
   (.inlet, [[(34, 0)]]),
   (.outlet 0 0, []),
   (.graph [4], [[(10, 0)], [(27, 0)]]),
   (.inlet, [[(5, 0), (7, 0)]]),
   (.obj, [[(6, 0)], []]),
   (.outlet 3 1, []),
   (.obj, [[(8, 0)], []]),
   (.outlet 3 0, []),
   (.outlet 0 1, []),
   (.graph [11, 12], [[(2, 0)]]),
   (.inlet, [[(14, 0)]]),
   (.inlet, [[(14, 1)]]),
   (.outlet 10 0, []),
   (.obj, [[], [(13, 0)]]),
   (.obj, [[(10, 1), (16, 1)]]),
   (.graph [17, 18], [[(9, 0), (47, 1)]]),
   (.inlet, [[(20, 0)]]),
   (.inlet, [[(20, 1)]]),
   (.outlet 16 0, []),
   (.obj, [[], [(19, 0)]]),
   (.inlet, [[(47, 1)]]),
   (.graph [23, 24], [[(3, 0)]]),
   (.inlet, [[(26, 0)]]),
   (.inlet, [[(26, 1)]]),
   (.outlet 22 0, []),
   (.obj, [[], [(25, 0)]]),
   (.seq [some .float, some .float], [[(16, 0)], [(15, 0)]]),
   (.graph [29], [[(48, 0)], [(41, 0)]]),
   (.inlet, [[(30, 0), (32, 0)]]),
   (.obj, [[(31, 0)], []]),
   (.outlet 28 1, []),
   (.obj, [[(33, 0)], []]),
   (.outlet 28 0, []),
   (.seq [none, none], [[(42, 0)], [(28, 0)]]),
   (.graph [38, 39], [[(42, 1), (49, 0)]]),
   (.obj, [[(37, 0)]]),
   (.outlet 35 0, []),
   (.inlet, [[(36, 0)]]),
   (.inlet, [[(36, 1)]]),
   (.obj, [[(35, 1)]]),
   (.obj, [[(35, 1)]]),
   (.graph [43, 44], [[(3, 0)]]),
   (.inlet, [[(46, 0)]]),
   (.inlet, [[(46, 1)]]),
   (.outlet 42 0, []),
   (.obj, [[], [(45, 0)]]),
   (.obj, [[(22, 0)]]),
   (.seq [some .bang, some .float, some .bang], [[(40, 0)], [(47, 0)], [(35, 0)]]),
   (.obj, [[(22, 1)]]),
   (.obj, []),
   (.obj, []),
   (.obj, [[(0, 0)]]),
   (.obj, [[(0, 1)]])]

theorem shape_eq : shapeOf (nodes) = shape := rfl

theorem checked : check (shapeOf (nodes)) recvs order prio [0, 0, 0, 0, 0, 0, 0, 0, 0, 0, 0, 0, 0, 0, 0, 0, 0, 0, 0, 0, 0, 0, 0, 0, 0, 0, 0, 1, 0, 0, 0, 0, 0, 0, 1, 0, 0, 0, 0, 0, 0, 0, 0, 0, 0, 0, 0, 0, 1, 0, 0, 0, 0, 0] = true := by
  rw [shape_eq]
  decide +kernel

theorem classes : clsOK (nodes) = true := rfl

theorem drv_valid {i : Nat} (h : i < 2) (m : Msg) : (Control.Src.outlet (drv i) 0 m).Valid (mkPatch (nodes) (recvsOf recvs) prio) (nodes).length := by
  have : i = 0 ∨ i = 1 := by omega
  rcases this with rfl | rfl <;> exact ⟨Nat.le_of_ble_eq_true rfl, rfl, Nat.le_of_ble_eq_true rfl⟩

/-- messages for the inlets there are -/
def Inlet : Ev → Prop
  | .ext _ i _ => i < 2
  | .tick => True

theorem driven {e : Ev} (h : Inlet e) : Driven (nodes) (recvsOf recvs) prio drv e := by
  cases e with
  | ext t i m => exact drv_valid h
  | tick => trivial

theorem to_code {c : Ctx} {M : Mach} (hM : Code c M) {tab : Nat → List ℚ} {Fits : Ev → Prop} (hf : ∀ e, Fits e → Inlet e) {σ : Type}
    {on : σ → Ev → σ} {x0 : σ} {Sim : σ → St → Prop}
    (h : Simulates (mach c) drv (start c (nodes) tab) Fits on x0 Sim) :
    Simulates M drv (start c (nodes) tab) Fits on x0 (fun x s => Sim x s ∧ GoodQ (nodes) s) :=
  h.code (checked) (classes) hM fun e he => driven (hf e he)

/-- it compiles -/
theorem code_exists (c : Ctx) : ∃ M, Code c M := exists_compiled c (checked) (f := 20) (by rw [shape_eq]; decide +kernel)

/-! one lemma per object, for rewriting -/

theorem n0_0 (c : Ctx) (m : Msg) : (sys c).node (0, 0) m = .fwd false [((34, 0), m)] := rfl
theorem n0_1 (c : Ctx) (m : Msg) : (sys c).node (0, 1) m = .fwd false [((47, 1), m)] := rfl
theorem n2 (c : Ctx) (i : Nat) (m : Msg) : (sys c).node (2, i) m = .fwd false [((50, 0), m)] := rfl
theorem n3_0 (c : Ctx) (m : Msg) : (sys c).node (3, 0) m = .fwd false [((5, 0), m), ((7, 0), m)] := rfl
theorem n5 (c : Ctx) (i : Nat) (m : Msg) : (sys c).node (5, i) m = .obj (beh c (.slice 1 1) 5 i m) := rfl
theorem o5_0 (c : Ctx) : (sys c).out 5 0 = [(6, 0)] := rfl
theorem o5_1 (c : Ctx) : (sys c).out 5 1 = [] := rfl
theorem n6 (c : Ctx) (i : Nat) (m : Msg) : (sys c).node (6, i) m = .fwd false [((27, 0), m)] := rfl
theorem n7 (c : Ctx) (i : Nat) (m : Msg) : (sys c).node (7, i) m = .obj (beh c (.slice 0 1) 7 i m) := rfl
theorem o7_0 (c : Ctx) : (sys c).out 7 0 = [(8, 0)] := rfl
theorem o7_1 (c : Ctx) : (sys c).out 7 1 = [] := rfl
theorem n8 (c : Ctx) (i : Nat) (m : Msg) : (sys c).node (8, i) m = .fwd false [((10, 0), m)] := rfl
theorem n9 (c : Ctx) (i : Nat) (m : Msg) : (sys c).node (9, i) m = .fwd false [((51, 0), m)] := rfl
theorem n10_0 (c : Ctx) (m : Msg) : (sys c).node (10, 0) m = .fwd false [((14, 0), m)] := rfl
theorem n10_1 (c : Ctx) (m : Msg) : (sys c).node (10, 1) m = .fwd false [((14, 1), m)] := rfl
theorem n13 (c : Ctx) (i : Nat) (m : Msg) : (sys c).node (13, i) m = .fwd false [((2, 0), m)] := rfl
theorem n14 (c : Ctx) (i : Nat) (m : Msg) : (sys c).node (14, i) m = .obj (beh c (.ite 0) 14 i m) := rfl
theorem o14_0 (c : Ctx) : (sys c).out 14 0 = [] := rfl
theorem o14_1 (c : Ctx) : (sys c).out 14 1 = [(13, 0)] := rfl
theorem n15 (c : Ctx) (i : Nat) (m : Msg) : (sys c).node (15, i) m = .obj (beh c (.bink .neq 0) 15 i m) := rfl
theorem o15_0 (c : Ctx) : (sys c).out 15 0 = [(10, 1), (16, 1)] := rfl
theorem n16_0 (c : Ctx) (m : Msg) : (sys c).node (16, 0) m = .fwd false [((20, 0), m)] := rfl
theorem n16_1 (c : Ctx) (m : Msg) : (sys c).node (16, 1) m = .fwd false [((20, 1), m)] := rfl
theorem n19 (c : Ctx) (i : Nat) (m : Msg) : (sys c).node (19, i) m = .fwd false [((9, 0), m), ((47, 1), m)] := rfl
theorem n20 (c : Ctx) (i : Nat) (m : Msg) : (sys c).node (20, i) m = .obj (beh c (.ite 0) 20 i m) := rfl
theorem o20_0 (c : Ctx) : (sys c).out 20 0 = [] := rfl
theorem o20_1 (c : Ctx) : (sys c).out 20 1 = [(19, 0)] := rfl
theorem n22_0 (c : Ctx) (m : Msg) : (sys c).node (22, 0) m = .fwd false [((26, 0), m)] := rfl
theorem n22_1 (c : Ctx) (m : Msg) : (sys c).node (22, 1) m = .fwd false [((26, 1), m)] := rfl
theorem n25 (c : Ctx) (i : Nat) (m : Msg) : (sys c).node (25, i) m = .fwd false [((3, 0), m)] := rfl
theorem n26 (c : Ctx) (i : Nat) (m : Msg) : (sys c).node (26, i) m = .obj (beh c (.ite 0) 26 i m) := rfl
theorem o26_0 (c : Ctx) : (sys c).out 26 0 = [] := rfl
theorem o26_1 (c : Ctx) : (sys c).out 26 1 = [(25, 0)] := rfl
theorem n27 (c : Ctx) (i : Nat) (m : Msg) : (sys c).node (27, i) m = .fwd false (castTo .float [(15, 0)] m ++ (castTo .float [(16, 0)] m ++ ([]))) := by rcases m with _ | ⟨_ | _ | _, _⟩ <;> rfl
theorem n28_0 (c : Ctx) (m : Msg) : (sys c).node (28, 0) m = .fwd false [((30, 0), m), ((32, 0), m)] := rfl
theorem n30 (c : Ctx) (i : Nat) (m : Msg) : (sys c).node (30, i) m = .obj (beh c (.slice 1 1) 30 i m) := rfl
theorem o30_0 (c : Ctx) : (sys c).out 30 0 = [(31, 0)] := rfl
theorem o30_1 (c : Ctx) : (sys c).out 30 1 = [] := rfl
theorem n31 (c : Ctx) (i : Nat) (m : Msg) : (sys c).node (31, i) m = .fwd false [((41, 0), m)] := rfl
theorem n32 (c : Ctx) (i : Nat) (m : Msg) : (sys c).node (32, i) m = .obj (beh c (.slice 0 1) 32 i m) := rfl
theorem o32_0 (c : Ctx) : (sys c).out 32 0 = [(33, 0)] := rfl
theorem o32_1 (c : Ctx) : (sys c).out 32 1 = [] := rfl
theorem n33 (c : Ctx) (i : Nat) (m : Msg) : (sys c).node (33, i) m = .fwd false [((48, 0), m)] := rfl
theorem n34 (c : Ctx) (i : Nat) (m : Msg) : (sys c).node (34, i) m = .fwd false ([((28, 0), m)] ++ ([((42, 0), m)] ++ ([]))) := rfl
theorem n35_0 (c : Ctx) (m : Msg) : (sys c).node (35, 0) m = .fwd false [((36, 0), m)] := rfl
theorem n35_1 (c : Ctx) (m : Msg) : (sys c).node (35, 1) m = .fwd false [((36, 1), m)] := rfl
theorem n36 (c : Ctx) (i : Nat) (m : Msg) : (sys c).node (36, i) m = .obj (beh c (.var (.float 0)) 36 i m) := rfl
theorem o36_0 (c : Ctx) : (sys c).out 36 0 = [(37, 0)] := rfl
theorem n37 (c : Ctx) (i : Nat) (m : Msg) : (sys c).node (37, i) m = .fwd false [((42, 1), m), ((49, 0), m)] := rfl
theorem n40 (c : Ctx) (i : Nat) (m : Msg) : (sys c).node (40, i) m = .obj (beh c (.msg [.lit (.float 0)]) 40 i m) := rfl
theorem o40_0 (c : Ctx) : (sys c).out 40 0 = [(35, 1)] := rfl
theorem n41 (c : Ctx) (i : Nat) (m : Msg) : (sys c).node (41, i) m = .obj (beh c (.msg [.lit (.float 1)]) 41 i m) := rfl
theorem o41_0 (c : Ctx) : (sys c).out 41 0 = [(35, 1)] := rfl
theorem n42_0 (c : Ctx) (m : Msg) : (sys c).node (42, 0) m = .fwd false [((46, 0), m)] := rfl
theorem n42_1 (c : Ctx) (m : Msg) : (sys c).node (42, 1) m = .fwd false [((46, 1), m)] := rfl
theorem n45 (c : Ctx) (i : Nat) (m : Msg) : (sys c).node (45, i) m = .fwd false [((3, 0), m)] := rfl
theorem n46 (c : Ctx) (i : Nat) (m : Msg) : (sys c).node (46, i) m = .obj (beh c (.ite 0) 46 i m) := rfl
theorem o46_0 (c : Ctx) : (sys c).out 46 0 = [] := rfl
theorem o46_1 (c : Ctx) : (sys c).out 46 1 = [(45, 0)] := rfl
theorem n47 (c : Ctx) (i : Nat) (m : Msg) : (sys c).node (47, i) m = .obj (beh c (.pack [0, 0]) 47 i m) := rfl
theorem o47_0 (c : Ctx) : (sys c).out 47 0 = [(22, 0)] := rfl
theorem n48 (c : Ctx) (i : Nat) (m : Msg) : (sys c).node (48, i) m = .fwd false (castTo .bang [(35, 0)] m ++ (castTo .float [(47, 0)] m ++ (castTo .bang [(40, 0)] m ++ ([])))) := by rcases m with _ | ⟨_ | _ | _, _⟩ <;> rfl
theorem n49 (c : Ctx) (i : Nat) (m : Msg) : (sys c).node (49, i) m = .obj (beh c (.bink .eq 0) 49 i m) := rfl
theorem o49_0 (c : Ctx) : (sys c).out 49 0 = [(22, 1)] := rfl
theorem n50 (c : Ctx) (i : Nat) (m : Msg) : (sys c).node (50, i) m = .obj (beh c (.probe 0) 50 i m) := rfl
theorem n51 (c : Ctx) (i : Nat) (m : Msg) : (sys c).node (51, i) m = .obj (beh c (.probe 1) 51 i m) := rfl
theorem n52 (c : Ctx) (i : Nat) (m : Msg) : (sys c).node (52, i) m = .obj (beh c (.none) 52 i m) := rfl
theorem o52_0 (c : Ctx) : (sys c).out 52 0 = [(0, 0)] := rfl
theorem n53 (c : Ctx) (i : Nat) (m : Msg) : (sys c).node (53, i) m = .obj (beh c (.none) 53 i m) := rfl
theorem o53_0 (c : Ctx) : (sys c).out 53 0 = [(0, 1)] := rfl

attribute [lib_stripnote] n0_0 n0_1 n2 n3_0 n5 o5_0 o5_1 n6 n7 o7_0 o7_1 n8 n9 n10_0 n10_1 n13 n14 o14_0 o14_1 n15 o15_0 n16_0 n16_1 n19 n20 o20_0 o20_1 n22_0 n22_1 n25 n26 o26_0 o26_1 n27 n28_0 n30 o30_0 o30_1 n31 n32 o32_0 o32_1 n33 n34 n35_0 n35_1 n36 o36_0 n37 n40 o40_0 n41 o41_0 n42_0 n42_1 n45 n46 o46_0 o46_1 n47 o47_0 n48 n49 o49_0 n50 n51 n52 o52_0 n53 o53_0

end Verif.Lib.Stripnote
