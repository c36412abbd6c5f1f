import Verif.LibSim
/-!
The abstraction `[tabplay~]`: transcription of hvcc/interpreters/pd2hv/libs/pd/tabplay~.pd and of the library files it uses, made by
tools/pdlib.py.  Object `0` is the abstraction itself, its outlets are connected to `.probe`s.
-/
set_option linter.unusedVariables false
set_option linter.style.longLine false
set_option maxRecDepth 100000
namespace Verif.Lib.Tabplay
open Verif.Control (Dest Kind Cast Patch)

/-- the objects of hvcc/interpreters/pd2hv/libs/pd/tabplay~.pd: kind, connections of each outlet, class -/
def nodes (a1 : String) : List Node :=
  [⟨.graph [11], [[(22, 0)]], .none⟩,  -- 0: tabplay~
   ⟨.obj, [], .none⟩,  -- 1: tabplay~, object 0: outlet~ (makes a signal)
   ⟨.obj, [[(6, 0)]], .system⟩,  -- 2: tabplay~, object 2: pd @hv_obj system
   ⟨.obj, [[(2, 0)]], .msg [.lit (.sym "table"), .arg 0, .lit (.sym "size")]⟩,  -- 3: tabplay~, object 3: table \$1 size
   ⟨.obj, [[(24, 0), (5, 0)], []], .slice 1 1⟩,  -- 4: tabplay~, object 4: pd @hv_obj slice 1 1
   ⟨.obj, [[(3, 0)]], .var (.sym a1)⟩,  -- 5: tabplay~, object 5: pd @hv_obj __var \$1
   ⟨.obj, [[(13, 1)]], .bink .sub 1⟩,  -- 6: tabplay~, object 6: - 1
   ⟨.graph [], [[(5, 0)]], .none⟩,  -- 7: tabplay~, object 7: loadbang -1
   ⟨.recv, [[(9, 0)]], .none⟩,  -- 8: loadbang, object 0: r __hv_init \$1
   ⟨.outlet 7 0, [], .none⟩,  -- 9: loadbang, object 1: outlet
   ⟨.obj, [], .none⟩,  -- 10: tabplay~, object 8: pd @hv_obj __tabread_stoppable~f \$1 (makes a signal)
   ⟨.inlet, [[(16, 0)]], .none⟩,  -- 11: tabplay~, object 9: inlet -->
   ⟨.obj, [[(13, 0)]], .bink .max 0⟩,  -- 12: tabplay~, object 10: max 0
   ⟨.obj, [[(25, 0)]], .bin .min 0⟩,  -- 13: tabplay~, object 11: min 0
   ⟨.obj, [[(20, 0)]], .msg [.arg 0]⟩,  -- 14: tabplay~, object 12: \$1
   ⟨.outlet 0 0, [], .none⟩,  -- 15: tabplay~, object 13: outlet
   ⟨.obj, [[(4, 0)], [(20, 0), (25, 0)], [(25, 0)], [(14, 0), (21, 0)]], .switch [(.sym "set"), .bang, (.sym "stop")]⟩,  -- 16: tabplay~, object 14: pd @hv_obj __switchcase set bang stop
   ⟨.graph [], [[(20, 0)]], .none⟩,  -- 17: tabplay~, object 15: loadbang 0
   ⟨.recv, [[(19, 0)]], .none⟩,  -- 18: loadbang, object 0: r __hv_init \$1
   ⟨.outlet 17 0, [], .none⟩,  -- 19: loadbang, object 1: outlet
   ⟨.obj, [[(12, 0)]], .var (.sym a1)⟩,  -- 20: tabplay~, object 16: pd @hv_obj __var \$1
   ⟨.obj, [[(26, 0)], []], .slice 1 2⟩,  -- 21: tabplay~, object 17: pd @hv_obj slice 1 2
   ⟨.obj, [], .probe 0⟩,  -- 22: outlet 0 of the abstraction
   ⟨.obj, [[(0, 0)]], .none⟩,  -- 23: an object of the surrounding patch, connected to inlet 0
   ⟨.obj, [], .probe 1⟩,  -- 24: messages for tabplay~, object 8: pd @hv_obj __tabread_stoppable~f \$1, inlet 1
   ⟨.obj, [], .probe 2⟩,  -- 25: messages for tabplay~, object 8: pd @hv_obj __tabread_stoppable~f \$1, inlet 0
   ⟨.obj, [], .probe 3⟩]  -- 26: messages for tabplay~, object 8: pd @hv_obj __tabread_stoppable~f \$1, inlet 2

/-- receivers by name, in the order of the file: 0 = __hv_init -/
def recvs : List (List Nat) := [[8, 18]]

/-- priorities of receivers, PdReceiveObject.py:96-100 -/
def prio : Nat → Int
  | 8 => -1
  | 18 => 998
  | _ => 0

/-- the receivers in the order in which they fire -/
def order : List (List Nat) := [[18, 8]]

/-- the object connected to inlet `i` -/
def drv (i : Nat) : Nat := 23 + i

/-- the abstraction as it is (`Verif.Control`: C45, C35) -/
def mach (a1 : String) (c : Ctx) : Mach := source c (nodes a1) (recvsOf recvs) prio (recvsOf order)

/-- `M` is generated code -/
def Code (a1 : String) (c : Ctx) (M : Mach) : Prop := Compiled c (nodes a1) (recvsOf recvs) prio M

/-- what it means -/
def sys (a1 : String) (c : Ctx) : Control.Sys St Msg := (mach a1 c).sys

/-- kinds and connections -/
def shape : Shape :=
  [(.graph [11], [[(22, 0)]]),
   (.obj, []),
   (.obj, [[(6, 0)]]),
   (.obj, [[(2, 0)]]),
   (.obj, [[(24, 0), (5, 0)], []]),
   (.obj, [[(3, 0)]]),
   (.obj, [[(13, 1)]]),
   (.graph [], [[(5, 0)]]),
   (.recv, [[(9, 0)]]),
   (.outlet 7 0, []),
   (.obj, []),
   (.inlet, [[(16, 0)]]),
   (.obj, [[(13, 0)]]),
   (.obj, [[(25, 0)]]),
   (.obj, [[(20, 0)]]),
   (.outlet 0 0, []),
   (.obj, [[(4, 0)], [(20, 0), (25, 0)], [(25, 0)], [(14, 0), (21, 0)]]),
   (.graph [], [[(20, 0)]]),
   (.recv, [[(19, 0)]]),
   (.outlet 17 0, []),
   (.obj, [[(12, 0)]]),
   (.obj, [[(26, 0)], []]),
   (.obj, []),
   (.obj, [[(0, 0)]]),
   (.obj, []),
   (.obj, []),
   (.obj, [])]

theorem shape_eq (a1 : String) : shapeOf (nodes a1) = shape := rfl

theorem checked (a1 : String) : check (shapeOf (nodes a1)) recvs order prio [0, 0, 0, 0, 0, 0, 0, 0, 0, 0, 0, 0, 0, 0, 0, 0, 0, 0, 0, 0, 0, 0, 0, 0, 0, 0, 0] = true := by
  rw [shape_eq]
  decide +kernel

theorem classes (a1 : String) : clsOK (nodes a1) = true := rfl

theorem drv_valid (a1 : String) {i : Nat} (h : i < 1) (m : Msg) : (Control.Src.outlet (drv i) 0 m).Valid (mkPatch (nodes a1) (recvsOf recvs) prio) (nodes a1).length := by
  have : i = 0 := by omega
  rcases this with rfl <;> exact ⟨Nat.le_of_ble_eq_true rfl, rfl, Nat.le_of_ble_eq_true rfl⟩

/-- messages for the inlets there are -/
def Inlet : Ev → Prop
  | .ext _ i _ => i < 1
  | .tick => True

theorem driven (a1 : String) {e : Ev} (h : Inlet e) : Driven (nodes a1) (recvsOf recvs) prio drv e := by
  cases e with
  | ext t i m => exact drv_valid a1 h
  | tick => trivial

theorem to_code {c : Ctx} {a1 : String} {M : Mach} (hM : Code a1 c M) {tab : Nat → List ℚ} {Fits : Ev → Prop} (hf : ∀ e, Fits e → Inlet e) {σ : Type}
    {on : σ → Ev → σ} {x0 : σ} {Sim : σ → St → Prop}
    (h : Simulates (mach a1 c) drv (start c (nodes a1) tab) Fits on x0 Sim) :
    Simulates M drv (start c (nodes a1) tab) Fits on x0 (fun x s => Sim x s ∧ GoodQ (nodes a1) s) :=
  h.code (checked a1) (classes a1) hM fun e he => driven a1 (hf e he)

/-- it compiles -/
theorem code_exists (a1 : String) (c : Ctx) : ∃ M, Code a1 c M := exists_compiled c (checked a1) (f := 20) (by rw [shape_eq]; decide +kernel)

/-! one lemma per object, for rewriting -/

theorem n0_0 (a1 : String) (c : Ctx) (m : Msg) : (sys a1 c).node (0, 0) m = .fwd false [((16, 0), m)] := rfl
theorem n1 (a1 : String) (c : Ctx) (i : Nat) (m : Msg) : (sys a1 c).node (1, i) m = .obj (beh c (.none) 1 i m) := rfl
theorem n2 (a1 : String) (c : Ctx) (i : Nat) (m : Msg) : (sys a1 c).node (2, i) m = .obj (beh c (.system) 2 i m) := rfl
theorem o2_0 (a1 : String) (c : Ctx) : (sys a1 c).out 2 0 = [(6, 0)] := rfl
theorem n3 (a1 : String) (c : Ctx) (i : Nat) (m : Msg) : (sys a1 c).node (3, i) m = .obj (beh c (.msg [.lit (.sym "table"), .arg 0, .lit (.sym "size")]) 3 i m) := rfl
theorem o3_0 (a1 : String) (c : Ctx) : (sys a1 c).out 3 0 = [(2, 0)] := rfl
theorem n4 (a1 : String) (c : Ctx) (i : Nat) (m : Msg) : (sys a1 c).node (4, i) m = .obj (beh c (.slice 1 1) 4 i m) := rfl
theorem o4_0 (a1 : String) (c : Ctx) : (sys a1 c).out 4 0 = [(24, 0), (5, 0)] := rfl
theorem o4_1 (a1 : String) (c : Ctx) : (sys a1 c).out 4 1 = [] := rfl
theorem n5 (a1 : String) (c : Ctx) (i : Nat) (m : Msg) : (sys a1 c).node (5, i) m = .obj (beh c (.var (.sym a1)) 5 i m) := rfl
theorem o5_0 (a1 : String) (c : Ctx) : (sys a1 c).out 5 0 = [(3, 0)] := rfl
theorem n6 (a1 : String) (c : Ctx) (i : Nat) (m : Msg) : (sys a1 c).node (6, i) m = .obj (beh c (.bink .sub 1) 6 i m) := rfl
theorem o6_0 (a1 : String) (c : Ctx) : (sys a1 c).out 6 0 = [(13, 1)] := rfl
theorem n9 (a1 : String) (c : Ctx) (i : Nat) (m : Msg) : (sys a1 c).node (9, i) m = .fwd false [((5, 0), m)] := rfl
theorem n10 (a1 : String) (c : Ctx) (i : Nat) (m : Msg) : (sys a1 c).node (10, i) m = .obj (beh c (.none) 10 i m) := rfl
theorem n12 (a1 : String) (c : Ctx) (i : Nat) (m : Msg) : (sys a1 c).node (12, i) m = .obj (beh c (.bink .max 0) 12 i m) := rfl
theorem o12_0 (a1 : String) (c : Ctx) : (sys a1 c).out 12 0 = [(13, 0)] := rfl
theorem n13 (a1 : String) (c : Ctx) (i : Nat) (m : Msg) : (sys a1 c).node (13, i) m = .obj (beh c (.bin .min 0) 13 i m) := rfl
theorem o13_0 (a1 : String) (c : Ctx) : (sys a1 c).out 13 0 = [(25, 0)] := rfl
theorem n14 (a1 : String) (c : Ctx) (i : Nat) (m : Msg) : (sys a1 c).node (14, i) m = .obj (beh c (.msg [.arg 0]) 14 i m) := rfl
theorem o14_0 (a1 : String) (c : Ctx) : (sys a1 c).out 14 0 = [(20, 0)] := rfl
theorem n15 (a1 : String) (c : Ctx) (i : Nat) (m : Msg) : (sys a1 c).node (15, i) m = .fwd false [((22, 0), m)] := rfl
theorem n16 (a1 : String) (c : Ctx) (i : Nat) (m : Msg) : (sys a1 c).node (16, i) m = .obj (beh c (.switch [(.sym "set"), .bang, (.sym "stop")]) 16 i m) := rfl
theorem o16_0 (a1 : String) (c : Ctx) : (sys a1 c).out 16 0 = [(4, 0)] := rfl
theorem o16_1 (a1 : String) (c : Ctx) : (sys a1 c).out 16 1 = [(20, 0), (25, 0)] := rfl
theorem o16_2 (a1 : String) (c : Ctx) : (sys a1 c).out 16 2 = [(25, 0)] := rfl
theorem o16_3 (a1 : String) (c : Ctx) : (sys a1 c).out 16 3 = [(14, 0), (21, 0)] := rfl
theorem n19 (a1 : String) (c : Ctx) (i : Nat) (m : Msg) : (sys a1 c).node (19, i) m = .fwd false [((20, 0), m)] := rfl
theorem n20 (a1 : String) (c : Ctx) (i : Nat) (m : Msg) : (sys a1 c).node (20, i) m = .obj (beh c (.var (.sym a1)) 20 i m) := rfl
theorem o20_0 (a1 : String) (c : Ctx) : (sys a1 c).out 20 0 = [(12, 0)] := rfl
theorem n21 (a1 : String) (c : Ctx) (i : Nat) (m : Msg) : (sys a1 c).node (21, i) m = .obj (beh c (.slice 1 2) 21 i m) := rfl
theorem o21_0 (a1 : String) (c : Ctx) : (sys a1 c).out 21 0 = [(26, 0)] := rfl
theorem o21_1 (a1 : String) (c : Ctx) : (sys a1 c).out 21 1 = [] := rfl
theorem n22 (a1 : String) (c : Ctx) (i : Nat) (m : Msg) : (sys a1 c).node (22, i) m = .obj (beh c (.probe 0) 22 i m) := rfl
theorem n23 (a1 : String) (c : Ctx) (i : Nat) (m : Msg) : (sys a1 c).node (23, i) m = .obj (beh c (.none) 23 i m) := rfl
theorem o23_0 (a1 : String) (c : Ctx) : (sys a1 c).out 23 0 = [(0, 0)] := rfl
theorem n24 (a1 : String) (c : Ctx) (i : Nat) (m : Msg) : (sys a1 c).node (24, i) m = .obj (beh c (.probe 1) 24 i m) := rfl
theorem n25 (a1 : String) (c : Ctx) (i : Nat) (m : Msg) : (sys a1 c).node (25, i) m = .obj (beh c (.probe 2) 25 i m) := rfl
theorem n26 (a1 : String) (c : Ctx) (i : Nat) (m : Msg) : (sys a1 c).node (26, i) m = .obj (beh c (.probe 3) 26 i m) := rfl

attribute [lib_tabplay] n0_0 n1 n2 o2_0 n3 o3_0 n4 o4_0 o4_1 n5 o5_0 n6 o6_0 n9 n10 n12 o12_0 n13 o13_0 n14 o14_0 n15 n16 o16_0 o16_1 o16_2 o16_3 n19 n20 o20_0 n21 o21_0 o21_1 n22 n23 o23_0 n24 n25 n26

end Verif.Lib.Tabplay
