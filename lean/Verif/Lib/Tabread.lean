import Verif.LibSim
/-!
The abstraction `[tabread]`: transcription of hvcc/interpreters/pd2hv/libs/pd/tabread.pd and of the library files it uses, made by
tools/pdlib.py.  Object `0` is the abstraction itself, its outlets are connected to `.probe`s.
-/
set_option linter.unusedVariables false
set_option linter.style.longLine false
set_option maxRecDepth 100000
namespace Verif.Lib.Tabread
open Verif.Control (Dest Kind Cast Patch)

/-- the objects of hvcc/interpreters/pd2hv/libs/pd/tabread.pd: kind, connections of each outlet, class -/
def nodes (a1 : String) : List Node :=
  [⟨.graph [1], [[(22, 0)]], .none⟩,  -- 0: tabread
   ⟨.inlet, [[(4, 0)]], .none⟩,  -- 1: tabread, object 0: inlet -->
   ⟨.outlet 0 0, [], .none⟩,  -- 2: tabread, object 1: outlet -->
   ⟨.obj, [[(2, 0)]], .tabread 0⟩,  -- 3: tabread, object 2: pd @hv_obj __tabread \$1
   ⟨.graph [5, 6], [[(3, 1)], [(13, 0)]], .none⟩,  -- 4: tabread, object 3: route set
   ⟨.inlet, [[(7, 0)]], .none⟩,  -- 5: tabread, object 3: route set
   ⟨.inlet, [[]], .none⟩,  -- 6: tabread, object 3: route set
   ⟨.obj, [[(9, 0)], [(8, 0)]], .switch [(.sym "set")]⟩,  -- 7: tabread, object 3: route set
   ⟨.outlet 4 1, [], .none⟩,  -- 8: tabread, object 3: route set
   ⟨.obj, [[(10, 0)], [(10, 0)]], .slice 1 0⟩,  -- 9: tabread, object 3: route set
   ⟨.outlet 4 0, [], .none⟩,  -- 10: tabread, object 3: route set
   ⟨.obj, [[(21, 0)]], .system⟩,  -- 11: tabread, object 5: pd @hv_obj system
   ⟨.obj, [[(19, 0)]], .bink .max 0⟩,  -- 12: tabread, object 6: max 0
   ⟨.seq [some .float, some .bang], [[(12, 0)], [(14, 0)]], .none⟩,  -- 13: tabread, object 7: t f b
   ⟨.graph [15, 18], [[(20, 0)]], .none⟩,  -- 14: tabread, object 8: symbol \$1
   ⟨.inlet, [[(17, 0)]], .none⟩,  -- 15: symbol, object 0: inlet
   ⟨.outlet 14 0, [], .none⟩,  -- 16: symbol, object 1: outlet
   ⟨.obj, [[(16, 0)]], .var (.sym a1)⟩,  -- 17: symbol, object 2: pd @hv_obj __var \$1
   ⟨.inlet, [[(17, 1)]], .none⟩,  -- 18: symbol, object 3: inlet
   ⟨.obj, [[(3, 0)]], .bin .min 0⟩,  -- 19: tabread, object 9: min 0
   ⟨.obj, [[(11, 0)]], .msg [.lit (.sym "table"), .arg 0, .lit (.sym "length")]⟩,  -- 20: tabread, object 10: table \$1 length
   ⟨.obj, [[(19, 1)]], .bink .sub 1⟩,  -- 21: tabread, object 11: - 1
   ⟨.obj, [], .probe 0⟩,  -- 22: outlet 0 of the abstraction
   ⟨.obj, [[(0, 0)]], .none⟩]  -- 23: an object of the surrounding patch, connected to inlet 0

/-- receivers by name, in the order of the file: 0 = __hv_init -/
def recvs : List (List Nat) := [[]]

/-- priorities of receivers, PdReceiveObject.py:96-100 -/
def prio : Nat → Int
  | _ => 0

/-- the receivers in the order in which they fire -/
def order : List (List Nat) := [[]]

/-- the object connected to inlet `i` -/
def drv (i : Nat) : Nat := 23 + i

/-- the abstraction as it is (`Verif.Control`: C45, C35) -/
def mach (a1 : String) (c : Ctx) : Mach := source c (nodes a1) (recvsOf recvs) prio (recvsOf order)

/-- `M` is generated code -/
def Code (a1 : String) (c : Ctx) (M : Mach) : Prop := Compiled c (nodes a1) (recvsOf recvs) prio M

/-- what it means -/
def sys (a1 : String) (c : Ctx) : Control.Sys St Msg := (mach a1 c).sys

/-- kinds and connections -/
def shape : Shape :=
  [(.graph [1], [[(22, 0)]]),
   (.inlet, [[(4, 0)]]),
   (.outlet 0 0, []),
   (.obj, [[(2, 0)]]),
   (.graph [5, 6], [[(3, 1)], [(13, 0)]]),
   (.inlet, [[(7, 0)]]),
   (.inlet, [[]]),
   (.obj, [[(9, 0)], [(8, 0)]]),
   (.outlet 4 1, []),
   (.obj, [[(10, 0)], [(10, 0)]]),
   (.outlet 4 0, []),
   (.obj, [[(21, 0)]]),
   (.obj, [[(19, 0)]]),
   (.seq [some .float, some .bang], [[(12, 0)], [(14, 0)]]),
   (.graph [15, 18], [[(20, 0)]]),
   (.inlet, [[(17, 0)]]),
   (.outlet 14 0, []),
   (.obj, [[(16, 0)]]),
   (.inlet, [[(17, 1)]]),
   (.obj, [[(3, 0)]]),
   (.obj, [[(11, 0)]]),
   (.obj, [[(19, 1)]]),
   (.obj, []),
   (.obj, [[(0, 0)]])]

theorem shape_eq (a1 : String) : shapeOf (nodes a1) = shape := rfl

theorem checked (a1 : String) : check (shapeOf (nodes a1)) recvs order prio [0, 0, 0, 0, 0, 0, 0, 0, 0, 0, 0, 0, 0, 1, 0, 0, 0, 0, 0, 0, 0, 0, 0, 0] = true := by
  rw [shape_eq]
  decide +kernel

theorem classes (a1 : String) : clsOK (nodes a1) = true := rfl

theorem drv_valid (a1 : String) {i : Nat} (h : i < 1) (m : Msg) : (Control.Src.outlet (drv i) 0 m).Valid (mkPatch (nodes a1) (recvsOf recvs) prio) (nodes a1).length := by
  have : i = 0 := by omega
  rcases this with rfl <;> exact ⟨Nat.le_of_ble_eq_true rfl, rfl, Nat.le_of_ble_eq_true rfl⟩

/-- messages for the inlets there are -/
def Inlet : Ev → Prop
  | .ext _ i _ => i < 1
  | .tick => True

theorem driven (a1 : String) {e : Ev} (h : Inlet e) : Driven (nodes a1) (recvsOf recvs) prio drv e := by
  cases e with
  | ext t i m => exact drv_valid a1 h
  | tick => trivial

theorem to_code {c : Ctx} {a1 : String} {M : Mach} (hM : Code a1 c M) {tab : Nat → List ℚ} {Fits : Ev → Prop} (hf : ∀ e, Fits e → Inlet e) {σ : Type}
    {on : σ → Ev → σ} {x0 : σ} {Sim : σ → St → Prop}
    (h : Simulates (mach a1 c) drv (start c (nodes a1) tab) Fits on x0 Sim) :
    Simulates M drv (start c (nodes a1) tab) Fits on x0 (fun x s => Sim x s ∧ GoodQ (nodes a1) s) :=
  h.code (checked a1) (classes a1) hM fun e he => driven a1 (hf e he)

/-- it compiles -/
theorem code_exists (a1 : String) (c : Ctx) : ∃ M, Code a1 c M := exists_compiled c (checked a1) (f := 20) (by rw [shape_eq]; decide +kernel)

-- tables: 0 = ('p', 'a1') (?)

/-! one lemma per object, for rewriting -/

theorem n0_0 (a1 : String) (c : Ctx) (m : Msg) : (sys a1 c).node (0, 0) m = .fwd false [((4, 0), m)] := rfl
theorem n2 (a1 : String) (c : Ctx) (i : Nat) (m : Msg) : (sys a1 c).node (2, i) m = .fwd false [((22, 0), m)] := rfl
theorem n3 (a1 : String) (c : Ctx) (i : Nat) (m : Msg) : (sys a1 c).node (3, i) m = .obj (beh c (.tabread 0) 3 i m) := rfl
theorem o3_0 (a1 : String) (c : Ctx) : (sys a1 c).out 3 0 = [(2, 0)] := rfl
theorem n4_0 (a1 : String) (c : Ctx) (m : Msg) : (sys a1 c).node (4, 0) m = .fwd false [((7, 0), m)] := rfl
theorem n4_1 (a1 : String) (c : Ctx) (m : Msg) : (sys a1 c).node (4, 1) m = .fwd false [] := rfl
theorem n7 (a1 : String) (c : Ctx) (i : Nat) (m : Msg) : (sys a1 c).node (7, i) m = .obj (beh c (.switch [(.sym "set")]) 7 i m) := rfl
theorem o7_0 (a1 : String) (c : Ctx) : (sys a1 c).out 7 0 = [(9, 0)] := rfl
theorem o7_1 (a1 : String) (c : Ctx) : (sys a1 c).out 7 1 = [(8, 0)] := rfl
theorem n8 (a1 : String) (c : Ctx) (i : Nat) (m : Msg) : (sys a1 c).node (8, i) m = .fwd false [((13, 0), m)] := rfl
theorem n9 (a1 : String) (c : Ctx) (i : Nat) (m : Msg) : (sys a1 c).node (9, i) m = .obj (beh c (.slice 1 0) 9 i m) := rfl
theorem o9_0 (a1 : String) (c : Ctx) : (sys a1 c).out 9 0 = [(10, 0)] := rfl
theorem o9_1 (a1 : String) (c : Ctx) : (sys a1 c).out 9 1 = [(10, 0)] := rfl
theorem n10 (a1 : String) (c : Ctx) (i : Nat) (m : Msg) : (sys a1 c).node (10, i) m = .fwd false [((3, 1), m)] := rfl
theorem n11 (a1 : String) (c : Ctx) (i : Nat) (m : Msg) : (sys a1 c).node (11, i) m = .obj (beh c (.system) 11 i m) := rfl
theorem o11_0 (a1 : String) (c : Ctx) : (sys a1 c).out 11 0 = [(21, 0)] := rfl
theorem n12 (a1 : String) (c : Ctx) (i : Nat) (m : Msg) : (sys a1 c).node (12, i) m = .obj (beh c (.bink .max 0) 12 i m) := rfl
theorem o12_0 (a1 : String) (c : Ctx) : (sys a1 c).out 12 0 = [(19, 0)] := rfl
theorem n13 (a1 : String) (c : Ctx) (i : Nat) (m : Msg) : (sys a1 c).node (13, i) m = .fwd false (castTo .bang [(14, 0)] m ++ (castTo .float [(12, 0)] m ++ ([]))) := by rcases m with _ | ⟨_ | _ | _, _⟩ <;> rfl
theorem n14_0 (a1 : String) (c : Ctx) (m : Msg) : (sys a1 c).node (14, 0) m = .fwd false [((17, 0), m)] := rfl
theorem n14_1 (a1 : String) (c : Ctx) (m : Msg) : (sys a1 c).node (14, 1) m = .fwd false [((17, 1), m)] := rfl
theorem n16 (a1 : String) (c : Ctx) (i : Nat) (m : Msg) : (sys a1 c).node (16, i) m = .fwd false [((20, 0), m)] := rfl
theorem n17 (a1 : String) (c : Ctx) (i : Nat) (m : Msg) : (sys a1 c).node (17, i) m = .obj (beh c (.var (.sym a1)) 17 i m) := rfl
theorem o17_0 (a1 : String) (c : Ctx) : (sys a1 c).out 17 0 = [(16, 0)] := rfl
theorem n19 (a1 : String) (c : Ctx) (i : Nat) (m : Msg) : (sys a1 c).node (19, i) m = .obj (beh c (.bin .min 0) 19 i m) := rfl
theorem o19_0 (a1 : String) (c : Ctx) : (sys a1 c).out 19 0 = [(3, 0)] := rfl
theorem n20 (a1 : String) (c : Ctx) (i : Nat) (m : Msg) : (sys a1 c).node (20, i) m = .obj (beh c (.msg [.lit (.sym "table"), .arg 0, .lit (.sym "length")]) 20 i m) := rfl
theorem o20_0 (a1 : String) (c : Ctx) : (sys a1 c).out 20 0 = [(11, 0)] := rfl
theorem n21 (a1 : String) (c : Ctx) (i : Nat) (m : Msg) : (sys a1 c).node (21, i) m = .obj (beh c (.bink .sub 1) 21 i m) := rfl
theorem o21_0 (a1 : String) (c : Ctx) : (sys a1 c).out 21 0 = [(19, 1)] := rfl
theorem n22 (a1 : String) (c : Ctx) (i : Nat) (m : Msg) : (sys a1 c).node (22, i) m = .obj (beh c (.probe 0) 22 i m) := rfl
theorem n23 (a1 : String) (c : Ctx) (i : Nat) (m : Msg) : (sys a1 c).node (23, i) m = .obj (beh c (.none) 23 i m) := rfl
theorem o23_0 (a1 : String) (c : Ctx) : (sys a1 c).out 23 0 = [(0, 0)] := rfl

attribute [lib_tabread] n0_0 n2 n3 o3_0 n4_0 n4_1 n7 o7_0 o7_1 n8 n9 o9_0 o9_1 n10 n11 o11_0 n12 o12_0 n13 n14_0 n14_1 n16 n17 o17_0 n19 o19_0 n20 o20_0 n21 o21_0 n22 n23 o23_0

end Verif.Lib.Tabread
