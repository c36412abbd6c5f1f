import Verif.LibSim
/-!
The abstraction `[tabwrite~]`: transcription of hvcc/interpreters/pd2hv/libs/pd/tabwrite~.pd and of the library files it uses, made by
tools/pdlib.py.  Object `0` is the abstraction itself, its outlets are connected to `.probe`s.
-/
set_option linter.unusedVariables false
set_option linter.style.longLine false
set_option maxRecDepth 100000
namespace Verif.Lib.TabwriteS
open Verif.Control (Dest Kind Cast Patch)

/-- the objects of hvcc/interpreters/pd2hv/libs/pd/tabwrite~.pd: kind, connections of each outlet, class -/
def nodes (a1 : String) : List Node :=
  [⟨.graph [29], [], .none⟩,  -- 0: tabwrite~
   ⟨.obj, [[(3, 0)], [(14, 0)], [(2, 0)], [(7, 0)]], .switch [(.sym "start"), (.sym "stop"), (.sym "set")]⟩,  -- 1: tabwrite~, object 0: pd @hv_obj __switchcase start stop set
   ⟨.obj, [[(31, 0), (18, 0)], []], .slice 1 1⟩,  -- 2: tabwrite~, object 1: pd @hv_obj slice 1 1
   ⟨.obj, [[(32, 0), (10, 0)], [(28, 0)]], .slice 1 1⟩,  -- 3: tabwrite~, object 2: pd @hv_obj slice 1 1
   ⟨.obj, [], .none⟩,  -- 4: tabwrite~, object 4: pd @hv_obj __tabwrite_stoppable~f \$1 (makes a signal)
   ⟨.obj, [[(6, 1)]], .bink .div 1000⟩,  -- 5: tabwrite~, object 6: / 1000
   ⟨.obj, [[(12, 0)]], .bin .div 0⟩,  -- 6: tabwrite~, object 7: /
   ⟨.obj, [[(32, 0), (10, 0)]], .msg [.lit (.float 0)]⟩,  -- 7: tabwrite~, object 8: 0
   ⟨.obj, [[(10, 1)]], .system⟩,  -- 8: tabwrite~, object 11: pd @hv_obj system
   ⟨.obj, [[(8, 0)]], .msg [.lit (.sym "table"), .arg 0, .lit (.sym "size")]⟩,  -- 9: tabwrite~, object 12: table \$1 size
   ⟨.obj, [[(11, 0)]], .bin .sub 0⟩,  -- 10: tabwrite~, object 13: -
   ⟨.obj, [[(6, 0)]], .bink .mul (-1)⟩,  -- 11: tabwrite~, object 14: * -1
   ⟨.seq [none, none, none], [[(15, 0)], [(15, 1)], [(13, 0)]], .none⟩,  -- 12: tabwrite~, object 15: t a a a
   ⟨.obj, [[(15, 0)]], .msg [.lit (.sym "clear")]⟩,  -- 13: tabwrite~, object 17: clear
   ⟨.obj, [[(32, 0)]], .msg [.lit (.sym "stop")]⟩,  -- 14: tabwrite~, object 18: stop
   ⟨.obj, [[(14, 0)]], .delay 0⟩,  -- 15: tabwrite~, object 19: pd @hv_obj __delay
   ⟨.obj, [[(17, 0)]], .msg [.lit (.sym "samplerate")]⟩,  -- 16: tabwrite~, object 22: samplerate
   ⟨.obj, [[(5, 0)]], .system⟩,  -- 17: tabwrite~, object 23: pd @hv_obj system
   ⟨.obj, [[(9, 0)]], .var (.sym a1)⟩,  -- 18: tabwrite~, object 24: pd @hv_obj __var \$1
   ⟨.graph [], [[(18, 0)]], .none⟩,  -- 19: tabwrite~, object 25: loadbang
   ⟨.recv, [[(21, 0)]], .none⟩,  -- 20: loadbang, object 0: r __hv_init \$1
   ⟨.outlet 19 0, [], .none⟩,  -- 21: loadbang, object 1: outlet
   ⟨.graph [], [[(16, 0)]], .none⟩,  -- 22: tabwrite~, object 26: loadbang
   ⟨.recv, [[(24, 0)]], .none⟩,  -- 23: loadbang, object 0: r __hv_init \$1
   ⟨.outlet 22 0, [], .none⟩,  -- 24: loadbang, object 1: outlet
   ⟨.graph [], [[(14, 0)]], .none⟩,  -- 25: tabwrite~, object 27: loadbang
   ⟨.recv, [[(27, 0)]], .none⟩,  -- 26: loadbang, object 0: r __hv_init \$1
   ⟨.outlet 25 0, [], .none⟩,  -- 27: loadbang, object 1: outlet
   ⟨.obj, [[(32, 0), (10, 0)]], .msg [.lit (.float 0)]⟩,  -- 28: tabwrite~, object 28: 0
   ⟨.inlet, [[(1, 0)]], .none⟩,  -- 29: tabwrite~, object 29: inlet~ -~>
   ⟨.obj, [[(0, 0)]], .none⟩,  -- 30: an object of the surrounding patch, connected to inlet 0
   ⟨.obj, [], .probe 0⟩,  -- 31: messages for tabwrite~, object 4: pd @hv_obj __tabwrite_stoppable~f \$1, inlet 2
   ⟨.obj, [], .probe 1⟩]  -- 32: messages for tabwrite~, object 4: pd @hv_obj __tabwrite_stoppable~f \$1, inlet 1

/-- receivers by name, in the order of the file: 0 = __hv_init -/
def recvs : List (List Nat) := [[20, 23, 26]]

/-- priorities of receivers, PdReceiveObject.py:96-100 -/
def prio : Nat → Int
  | 20 => 999
  | 23 => 998
  | 26 => 997
  | _ => 0

/-- the receivers in the order in which they fire -/
def order : List (List Nat) := [[20, 23, 26]]

/-- the object connected to inlet `i` -/
def drv (i : Nat) : Nat := 30 + i

/-- the abstraction as it is (`Verif.Control`: C45, C35) -/
def mach (a1 : String) (c : Ctx) : Mach := source c (nodes a1) (recvsOf recvs) prio (recvsOf order)

/-- `M` is generated code -/
def Code (a1 : String) (c : Ctx) (M : Mach) : Prop := Compiled c (nodes a1) (recvsOf recvs) prio M

/-- what it means -/
def sys (a1 : String) (c : Ctx) : Control.Sys St Msg := (mach a1 c).sys

/-- kinds and connections -/
def shape : Shape :=
  [(.graph [29], []),
   (.obj, [[(3, 0)], [(14, 0)], [(2, 0)], [(7, 0)]]),
   (.obj, [[(31, 0), (18, 0)], []]),
   (.obj, [[(32, 0), (10, 0)], [(28, 0)]]),
   (.obj, []),
   (.obj, [[(6, 1)]]),
   (.obj, [[(12, 0)]]),
   (.obj, [[(32, 0), (10, 0)]]),
   (.obj, [[(10, 1)]]),
   (.obj, [[(8, 0)]]),
   (.obj, [[(11, 0)]]),
   (.obj, [[(6, 0)]]),
   (.seq [none, none, none], [[(15, 0)], [(15, 1)], [(13, 0)]]),
   (.obj, [[(15, 0)]]),
   (.obj, [[(32, 0)]]),
   (.obj, [[(14, 0)]]),
   (.obj, [[(17, 0)]]),
   (.obj, [[(5, 0)]]),
   (.obj, [[(9, 0)]]),
   (.graph [], [[(18, 0)]]),
   (.recv, [[(21, 0)]]),
   (.outlet 19 0, []),
   (.graph [], [[(16, 0)]]),
   (.recv, [[(24, 0)]]),
   (.outlet 22 0, []),
   (.graph [], [[(14, 0)]]),
   (.recv, [[(27, 0)]]),
   (.outlet 25 0, []),
   (.obj, [[(32, 0), (10, 0)]]),
   (.inlet, [[(1, 0)]]),
   (.obj, [[(0, 0)]]),
   (.obj, []),
   (.obj, [])]

theorem shape_eq (a1 : String) : shapeOf (nodes a1) = shape := rfl

theorem checked (a1 : String) : check (shapeOf (nodes a1)) recvs order prio [0, 0, 0, 0, 0, 0, 0, 0, 0, 0, 0, 0, 1, 0, 0, 0, 0, 0, 0, 0, 0, 0, 0, 0, 0, 0, 0, 0, 0, 0, 0, 0, 0] = true := by
  rw [shape_eq]
  decide +kernel

theorem classes (a1 : String) : clsOK (nodes a1) = true := rfl

theorem drv_valid (a1 : String) {i : Nat} (h : i < 1) (m : Msg) : (Control.Src.outlet (drv i) 0 m).Valid (mkPatch (nodes a1) (recvsOf recvs) prio) (nodes a1).length := by
  have : i = 0 := by omega
  rcases this with rfl <;> exact ⟨Nat.le_of_ble_eq_true rfl, rfl, Nat.le_of_ble_eq_true rfl⟩

/-- messages for the inlets there are -/
def Inlet : Ev → Prop
  | .ext _ i _ => i < 1
  | .tick => True

theorem driven (a1 : String) {e : Ev} (h : Inlet e) : Driven (nodes a1) (recvsOf recvs) prio drv e := by
  cases e with
  | ext t i m => exact drv_valid a1 h
  | tick => trivial

theorem to_code {c : Ctx} {a1 : String} {M : Mach} (hM : Code a1 c M) {tab : Nat → List ℚ} {Fits : Ev → Prop} (hf : ∀ e, Fits e → Inlet e) {σ : Type}
    {on : σ → Ev → σ} {x0 : σ} {Sim : σ → St → Prop}
    (h : Simulates (mach a1 c) drv (start c (nodes a1) tab) Fits on x0 Sim) :
    Simulates M drv (start c (nodes a1) tab) Fits on x0 (fun x s => Sim x s ∧ GoodQ (nodes a1) s) :=
  h.code (checked a1) (classes a1) hM fun e he => driven a1 (hf e he)

/-- it compiles -/
theorem code_exists (a1 : String) (c : Ctx) : ∃ M, Code a1 c M := exists_compiled c (checked a1) (f := 20) (by rw [shape_eq]; decide +kernel)

/-! one lemma per object, for rewriting -/

theorem n0_0 (a1 : String) (c : Ctx) (m : Msg) : (sys a1 c).node (0, 0) m = .fwd false [((1, 0), m)] := rfl
theorem n1 (a1 : String) (c : Ctx) (i : Nat) (m : Msg) : (sys a1 c).node (1, i) m = .obj (beh c (.switch [(.sym "start"), (.sym "stop"), (.sym "set")]) 1 i m) := rfl
theorem o1_0 (a1 : String) (c : Ctx) : (sys a1 c).out 1 0 = [(3, 0)] := rfl
theorem o1_1 (a1 : String) (c : Ctx) : (sys a1 c).out 1 1 = [(14, 0)] := rfl
theorem o1_2 (a1 : String) (c : Ctx) : (sys a1 c).out 1 2 = [(2, 0)] := rfl
theorem o1_3 (a1 : String) (c : Ctx) : (sys a1 c).out 1 3 = [(7, 0)] := rfl
theorem n2 (a1 : String) (c : Ctx) (i : Nat) (m : Msg) : (sys a1 c).node (2, i) m = .obj (beh c (.slice 1 1) 2 i m) := rfl
theorem o2_0 (a1 : String) (c : Ctx) : (sys a1 c).out 2 0 = [(31, 0), (18, 0)] := rfl
theorem o2_1 (a1 : String) (c : Ctx) : (sys a1 c).out 2 1 = [] := rfl
theorem n3 (a1 : String) (c : Ctx) (i : Nat) (m : Msg) : (sys a1 c).node (3, i) m = .obj (beh c (.slice 1 1) 3 i m) := rfl
theorem o3_0 (a1 : String) (c : Ctx) : (sys a1 c).out 3 0 = [(32, 0), (10, 0)] := rfl
theorem o3_1 (a1 : String) (c : Ctx) : (sys a1 c).out 3 1 = [(28, 0)] := rfl
theorem n4 (a1 : String) (c : Ctx) (i : Nat) (m : Msg) : (sys a1 c).node (4, i) m = .obj (beh c (.none) 4 i m) := rfl
theorem n5 (a1 : String) (c : Ctx) (i : Nat) (m : Msg) : (sys a1 c).node (5, i) m = .obj (beh c (.bink .div 1000) 5 i m) := rfl
theorem o5_0 (a1 : String) (c : Ctx) : (sys a1 c).out 5 0 = [(6, 1)] := rfl
theorem n6 (a1 : String) (c : Ctx) (i : Nat) (m : Msg) : (sys a1 c).node (6, i) m = .obj (beh c (.bin .div 0) 6 i m) := rfl
theorem o6_0 (a1 : String) (c : Ctx) : (sys a1 c).out 6 0 = [(12, 0)] := rfl
theorem n7 (a1 : String) (c : Ctx) (i : Nat) (m : Msg) : (sys a1 c).node (7, i) m = .obj (beh c (.msg [.lit (.float 0)]) 7 i m) := rfl
theorem o7_0 (a1 : String) (c : Ctx) : (sys a1 c).out 7 0 = [(32, 0), (10, 0)] := rfl
theorem n8 (a1 : String) (c : Ctx) (i : Nat) (m : Msg) : (sys a1 c).node (8, i) m = .obj (beh c (.system) 8 i m) := rfl
theorem o8_0 (a1 : String) (c : Ctx) : (sys a1 c).out 8 0 = [(10, 1)] := rfl
theorem n9 (a1 : String) (c : Ctx) (i : Nat) (m : Msg) : (sys a1 c).node (9, i) m = .obj (beh c (.msg [.lit (.sym "table"), .arg 0, .lit (.sym "size")]) 9 i m) := rfl
theorem o9_0 (a1 : String) (c : Ctx) : (sys a1 c).out 9 0 = [(8, 0)] := rfl
theorem n10 (a1 : String) (c : Ctx) (i : Nat) (m : Msg) : (sys a1 c).node (10, i) m = .obj (beh c (.bin .sub 0) 10 i m) := rfl
theorem o10_0 (a1 : String) (c : Ctx) : (sys a1 c).out 10 0 = [(11, 0)] := rfl
theorem n11 (a1 : String) (c : Ctx) (i : Nat) (m : Msg) : (sys a1 c).node (11, i) m = .obj (beh c (.bink .mul (-1)) 11 i m) := rfl
theorem o11_0 (a1 : String) (c : Ctx) : (sys a1 c).out 11 0 = [(6, 0)] := rfl
theorem n12 (a1 : String) (c : Ctx) (i : Nat) (m : Msg) : (sys a1 c).node (12, i) m = .fwd false ([((13, 0), m)] ++ ([((15, 1), m)] ++ ([((15, 0), m)] ++ ([])))) := rfl
theorem n13 (a1 : String) (c : Ctx) (i : Nat) (m : Msg) : (sys a1 c).node (13, i) m = .obj (beh c (.msg [.lit (.sym "clear")]) 13 i m) := rfl
theorem o13_0 (a1 : String) (c : Ctx) : (sys a1 c).out 13 0 = [(15, 0)] := rfl
theorem n14 (a1 : String) (c : Ctx) (i : Nat) (m : Msg) : (sys a1 c).node (14, i) m = .obj (beh c (.msg [.lit (.sym "stop")]) 14 i m) := rfl
theorem o14_0 (a1 : String) (c : Ctx) : (sys a1 c).out 14 0 = [(32, 0)] := rfl
theorem n15 (a1 : String) (c : Ctx) (i : Nat) (m : Msg) : (sys a1 c).node (15, i) m = .obj (beh c (.delay 0) 15 i m) := rfl
theorem o15_0 (a1 : String) (c : Ctx) : (sys a1 c).out 15 0 = [(14, 0)] := rfl
theorem n16 (a1 : String) (c : Ctx) (i : Nat) (m : Msg) : (sys a1 c).node (16, i) m = .obj (beh c (.msg [.lit (.sym "samplerate")]) 16 i m) := rfl
theorem o16_0 (a1 : String) (c : Ctx) : (sys a1 c).out 16 0 = [(17, 0)] := rfl
theorem n17 (a1 : String) (c : Ctx) (i : Nat) (m : Msg) : (sys a1 c).node (17, i) m = .obj (beh c (.system) 17 i m) := rfl
theorem o17_0 (a1 : String) (c : Ctx) : (sys a1 c).out 17 0 = [(5, 0)] := rfl
theorem n18 (a1 : String) (c : Ctx) (i : Nat) (m : Msg) : (sys a1 c).node (18, i) m = .obj (beh c (.var (.sym a1)) 18 i m) := rfl
theorem o18_0 (a1 : String) (c : Ctx) : (sys a1 c).out 18 0 = [(9, 0)] := rfl
theorem n21 (a1 : String) (c : Ctx) (i : Nat) (m : Msg) : (sys a1 c).node (21, i) m = .fwd false [((18, 0), m)] := rfl
theorem n24 (a1 : String) (c : Ctx) (i : Nat) (m : Msg) : (sys a1 c).node (24, i) m = .fwd false [((16, 0), m)] := rfl
theorem n27 (a1 : String) (c : Ctx) (i : Nat) (m : Msg) : (sys a1 c).node (27, i) m = .fwd false [((14, 0), m)] := rfl
theorem n28 (a1 : String) (c : Ctx) (i : Nat) (m : Msg) : (sys a1 c).node (28, i) m = .obj (beh c (.msg [.lit (.float 0)]) 28 i m) := rfl
theorem o28_0 (a1 : String) (c : Ctx) : (sys a1 c).out 28 0 = [(32, 0), (10, 0)] := rfl
theorem n30 (a1 : String) (c : Ctx) (i : Nat) (m : Msg) : (sys a1 c).node (30, i) m = .obj (beh c (.none) 30 i m) := rfl
theorem o30_0 (a1 : String) (c : Ctx) : (sys a1 c).out 30 0 = [(0, 0)] := rfl
theorem n31 (a1 : String) (c : Ctx) (i : Nat) (m : Msg) : (sys a1 c).node (31, i) m = .obj (beh c (.probe 0) 31 i m) := rfl
theorem n32 (a1 : String) (c : Ctx) (i : Nat) (m : Msg) : (sys a1 c).node (32, i) m = .obj (beh c (.probe 1) 32 i m) := rfl

attribute [lib_tabwrites] n0_0 n1 o1_0 o1_1 o1_2 o1_3 n2 o2_0 o2_1 n3 o3_0 o3_1 n4 n5 o5_0 n6 o6_0 n7 o7_0 n8 o8_0 n9 o9_0 n10 o10_0 n11 o11_0 n12 n13 o13_0 n14 o14_0 n15 o15_0 n16 o16_0 n17 o17_0 n18 o18_0 n21 n24 n27 n28 o28_0 n30 o30_0 n31 n32

end Verif.Lib.TabwriteS
