import Verif.LibSim
/-!
The abstraction `[tabosc4~]`: transcription of hvcc/interpreters/pd2hv/libs/pd/tabosc4~.pd and of the library files it uses, made by
tools/pdlib.py.  Object `0` is the abstraction itself, its outlets are connected to `.probe`s.
-/
set_option linter.unusedVariables false
set_option linter.style.longLine false
set_option maxRecDepth 100000
namespace Verif.Lib.Tabosc4
open Verif.Control (Dest Kind Cast Patch)

/-- the objects of hvcc/interpreters/pd2hv/libs/pd/tabosc4~.pd: kind, connections of each outlet, class -/
def nodes (a1 : String) : List Node :=
  [⟨.graph [24, 19], [], .none⟩,  -- 0: tabosc4~
   ⟨.obj, [], .none⟩,  -- 1: tabosc4~, object 0: *~ (makes a signal)
   ⟨.obj, [[(16, 0)]], .system⟩,  -- 2: tabosc4~, object 1: pd @hv_obj system
   ⟨.obj, [[(2, 0)]], .msg [.lit (.sym "table"), .arg 0, .lit (.sym "size")]⟩,  -- 3: tabosc4~, object 2: table \$1 size
   ⟨.obj, [[(3, 0)]], .var (.sym a1)⟩,  -- 4: tabosc4~, object 3: pd @hv_obj __var \$1
   ⟨.obj, [], .none⟩,  -- 5: tabosc4~, object 4: outlet~ (makes a signal)
   ⟨.obj, [], .none⟩,  -- 6: tabosc4~, object 5: -~ (makes a signal)
   ⟨.obj, [], .none⟩,  -- 7: tabosc4~, object 6: -~ (makes a signal)
   ⟨.obj, [], .none⟩,  -- 8: tabosc4~, object 7: *~ (makes a signal)
   ⟨.obj, [], .none⟩,  -- 9: tabosc4~, object 8: +~ (makes a signal)
   ⟨.obj, [], .none⟩,  -- 10: tabosc4~, object 10: pd @hv_obj __floor~f (makes a signal)
   ⟨.obj, [], .none⟩,  -- 11: tabosc4~, object 11: pd @hv_obj __cast~fi (makes a signal)
   ⟨.obj, [], .none⟩,  -- 12: tabosc4~, object 12: pd @hv_obj __add~i (makes a signal)
   ⟨.obj, [], .none⟩,  -- 13: tabosc4~, object 13: pd @hv_obj __var_k~i 1 (makes a signal)
   ⟨.obj, [], .none⟩,  -- 14: tabosc4~, object 15: pd @hv_obj __tabread~if \$1 (makes a signal)
   ⟨.obj, [], .none⟩,  -- 15: tabosc4~, object 16: pd @hv_obj __tabread~if \$1 (makes a signal)
   ⟨.obj, [[(27, 0)]], .bink .sub 2⟩,  -- 16: tabosc4~, object 17: - 2
   ⟨.obj, [[(18, 0)], []], .switch [(.sym "set")]⟩,  -- 17: tabosc4~, object 18: pd @hv_obj __switchcase set
   ⟨.obj, [[(4, 0), (28, 0), (29, 0)], []], .slice 1 1⟩,  -- 18: tabosc4~, object 19: pd @hv_obj slice 1 1
   ⟨.inlet, [[(30, 0)]], .none⟩,  -- 19: tabosc4~, object 20: inlet
   ⟨.graph [], [[(4, 0)]], .none⟩,  -- 20: tabosc4~, object 21: loadbang -1
   ⟨.recv, [[(22, 0)]], .none⟩,  -- 21: loadbang, object 0: r __hv_init \$1
   ⟨.outlet 20 0, [], .none⟩,  -- 22: loadbang, object 1: outlet
   ⟨.obj, [], .none⟩,  -- 23: tabosc4~, object 22: pd @hv_obj phasor (makes a signal)
   ⟨.inlet, [[(17, 0), (31, 0)]], .none⟩,  -- 24: tabosc4~, object 23: inlet -~>
   ⟨.obj, [[(0, 0)]], .none⟩,  -- 25: an object of the surrounding patch, connected to inlet 0
   ⟨.obj, [[(0, 1)]], .none⟩,  -- 26: an object of the surrounding patch, connected to inlet 1
   ⟨.obj, [], .probe 0⟩,  -- 27: messages for tabosc4~, object 0: *~, inlet 1
   ⟨.obj, [], .probe 1⟩,  -- 28: messages for tabosc4~, object 16: pd @hv_obj __tabread~if \$1, inlet 1
   ⟨.obj, [], .probe 2⟩,  -- 29: messages for tabosc4~, object 15: pd @hv_obj __tabread~if \$1, inlet 1
   ⟨.obj, [], .probe 3⟩,  -- 30: messages for tabosc4~, object 22: pd @hv_obj phasor, inlet 1
   ⟨.obj, [], .probe 4⟩]  -- 31: messages for tabosc4~, object 22: pd @hv_obj phasor, inlet 0

/-- receivers by name, in the order of the file: 0 = __hv_init -/
def recvs : List (List Nat) := [[21]]

/-- priorities of receivers, PdReceiveObject.py:96-100 -/
def prio : Nat → Int
  | 21 => -1
  | _ => 0

/-- the receivers in the order in which they fire -/
def order : List (List Nat) := [[21]]

/-- the object connected to inlet `i` -/
def drv (i : Nat) : Nat := 25 + i

/-- the abstraction as it is (`Verif.Control`: C45, C35) -/
def mach (a1 : String) (c : Ctx) : Mach := source c (nodes a1) (recvsOf recvs) prio (recvsOf order)

/-- `M` is generated code -/
def Code (a1 : String) (c : Ctx) (M : Mach) : Prop := Compiled c (nodes a1) (recvsOf recvs) prio M

/-- what it means -/
def sys (a1 : String) (c : Ctx) : Control.Sys St Msg := (mach a1 c).sys

/-- kinds and connections -/
def shape : Shape :=
  [(.graph [24, 19], []),
   (.obj, []),
   (.obj, [[(16, 0)]]),
   (.obj, [[(2, 0)]]),
   (.obj, [[(3, 0)]]),
   (.obj, []),
   (.obj, []),
   (.obj, []),
   (.obj, []),
   (.obj, []),
   (.obj, []),
   (.obj, []),
   (.obj, []),
   (.obj, []),
   (.obj, []),
   (.obj, []),
   (.obj, [[(27, 0)]]),
   (.obj, [[(18, 0)], []]),
   (.obj, [[(4, 0), (28, 0), (29, 0)], []]),
   (.inlet, [[(30, 0)]]),
   (.graph [], [[(4, 0)]]),
   (.recv, [[(22, 0)]]),
   (.outlet 20 0, []),
   (.obj, []),
   (.inlet, [[(17, 0), (31, 0)]]),
   (.obj, [[(0, 0)]]),
   (.obj, [[(0, 1)]]),
   (.obj, []),
   (.obj, []),
   (.obj, []),
   (.obj, []),
   (.obj, [])]

theorem shape_eq (a1 : String) : shapeOf (nodes a1) = shape := rfl

theorem checked (a1 : String) : check (shapeOf (nodes a1)) recvs order prio [0, 0, 0, 0, 0, 0, 0, 0, 0, 0, 0, 0, 0, 0, 0, 0, 0, 0, 0, 0, 0, 0, 0, 0, 0, 0, 0, 0, 0, 0, 0, 0] = true := by
  rw [shape_eq]
  decide +kernel

theorem classes (a1 : String) : clsOK (nodes a1) = true := rfl

theorem drv_valid (a1 : String) {i : Nat} (h : i < 2) (m : Msg) : (Control.Src.outlet (drv i) 0 m).Valid (mkPatch (nodes a1) (recvsOf recvs) prio) (nodes a1).length := by
  have : i = 0 ∨ i = 1 := by omega
  rcases this with rfl | rfl <;> exact ⟨Nat.le_of_ble_eq_true rfl, rfl, Nat.le_of_ble_eq_true rfl⟩

/-- messages for the inlets there are -/
def Inlet : Ev → Prop
  | .ext _ i _ => i < 2
  | .tick => True

theorem driven (a1 : String) {e : Ev} (h : Inlet e) : Driven (nodes a1) (recvsOf recvs) prio drv e := by
  cases e with
  | ext t i m => exact drv_valid a1 h
  | tick => trivial

theorem to_code {c : Ctx} {a1 : String} {M : Mach} (hM : Code a1 c M) {tab : Nat → List ℚ} {Fits : Ev → Prop} (hf : ∀ e, Fits e → Inlet e) {σ : Type}
    {on : σ → Ev → σ} {x0 : σ} {Sim : σ → St → Prop}
    (h : Simulates (mach a1 c) drv (start c (nodes a1) tab) Fits on x0 Sim) :
    Simulates M drv (start c (nodes a1) tab) Fits on x0 (fun x s => Sim x s ∧ GoodQ (nodes a1) s) :=
  h.code (checked a1) (classes a1) hM fun e he => driven a1 (hf e he)

/-- it compiles -/
theorem code_exists (a1 : String) (c : Ctx) : ∃ M, Code a1 c M := exists_compiled c (checked a1) (f := 20) (by rw [shape_eq]; decide +kernel)

/-! one lemma per object, for rewriting -/

theorem n0_0 (a1 : String) (c : Ctx) (m : Msg) : (sys a1 c).node (0, 0) m = .fwd false [((17, 0), m), ((31, 0), m)] := rfl
theorem n0_1 (a1 : String) (c : Ctx) (m : Msg) : (sys a1 c).node (0, 1) m = .fwd false [((30, 0), m)] := rfl
theorem n1 (a1 : String) (c : Ctx) (i : Nat) (m : Msg) : (sys a1 c).node (1, i) m = .obj (beh c (.none) 1 i m) := rfl
theorem n2 (a1 : String) (c : Ctx) (i : Nat) (m : Msg) : (sys a1 c).node (2, i) m = .obj (beh c (.system) 2 i m) := rfl
theorem o2_0 (a1 : String) (c : Ctx) : (sys a1 c).out 2 0 = [(16, 0)] := rfl
theorem n3 (a1 : String) (c : Ctx) (i : Nat) (m : Msg) : (sys a1 c).node (3, i) m = .obj (beh c (.msg [.lit (.sym "table"), .arg 0, .lit (.sym "size")]) 3 i m) := rfl
theorem o3_0 (a1 : String) (c : Ctx) : (sys a1 c).out 3 0 = [(2, 0)] := rfl
theorem n4 (a1 : String) (c : Ctx) (i : Nat) (m : Msg) : (sys a1 c).node (4, i) m = .obj (beh c (.var (.sym a1)) 4 i m) := rfl
theorem o4_0 (a1 : String) (c : Ctx) : (sys a1 c).out 4 0 = [(3, 0)] := rfl
theorem n5 (a1 : String) (c : Ctx) (i : Nat) (m : Msg) : (sys a1 c).node (5, i) m = .obj (beh c (.none) 5 i m) := rfl
theorem n6 (a1 : String) (c : Ctx) (i : Nat) (m : Msg) : (sys a1 c).node (6, i) m = .obj (beh c (.none) 6 i m) := rfl
theorem n7 (a1 : String) (c : Ctx) (i : Nat) (m : Msg) : (sys a1 c).node (7, i) m = .obj (beh c (.none) 7 i m) := rfl
theorem n8 (a1 : String) (c : Ctx) (i : Nat) (m : Msg) : (sys a1 c).node (8, i) m = .obj (beh c (.none) 8 i m) := rfl
theorem n9 (a1 : String) (c : Ctx) (i : Nat) (m : Msg) : (sys a1 c).node (9, i) m = .obj (beh c (.none) 9 i m) := rfl
theorem n10 (a1 : String) (c : Ctx) (i : Nat) (m : Msg) : (sys a1 c).node (10, i) m = .obj (beh c (.none) 10 i m) := rfl
theorem n11 (a1 : String) (c : Ctx) (i : Nat) (m : Msg) : (sys a1 c).node (11, i) m = .obj (beh c (.none) 11 i m) := rfl
theorem n12 (a1 : String) (c : Ctx) (i : Nat) (m : Msg) : (sys a1 c).node (12, i) m = .obj (beh c (.none) 12 i m) := rfl
theorem n13 (a1 : String) (c : Ctx) (i : Nat) (m : Msg) : (sys a1 c).node (13, i) m = .obj (beh c (.none) 13 i m) := rfl
theorem n14 (a1 : String) (c : Ctx) (i : Nat) (m : Msg) : (sys a1 c).node (14, i) m = .obj (beh c (.none) 14 i m) := rfl
theorem n15 (a1 : String) (c : Ctx) (i : Nat) (m : Msg) : (sys a1 c).node (15, i) m = .obj (beh c (.none) 15 i m) := rfl
theorem n16 (a1 : String) (c : Ctx) (i : Nat) (m : Msg) : (sys a1 c).node (16, i) m = .obj (beh c (.bink .sub 2) 16 i m) := rfl
theorem o16_0 (a1 : String) (c : Ctx) : (sys a1 c).out 16 0 = [(27, 0)] := rfl
theorem n17 (a1 : String) (c : Ctx) (i : Nat) (m : Msg) : (sys a1 c).node (17, i) m = .obj (beh c (.switch [(.sym "set")]) 17 i m) := rfl
theorem o17_0 (a1 : String) (c : Ctx) : (sys a1 c).out 17 0 = [(18, 0)] := rfl
theorem o17_1 (a1 : String) (c : Ctx) : (sys a1 c).out 17 1 = [] := rfl
theorem n18 (a1 : String) (c : Ctx) (i : Nat) (m : Msg) : (sys a1 c).node (18, i) m = .obj (beh c (.slice 1 1) 18 i m) := rfl
theorem o18_0 (a1 : String) (c : Ctx) : (sys a1 c).out 18 0 = [(4, 0), (28, 0), (29, 0)] := rfl
theorem o18_1 (a1 : String) (c : Ctx) : (sys a1 c).out 18 1 = [] := rfl
theorem n22 (a1 : String) (c : Ctx) (i : Nat) (m : Msg) : (sys a1 c).node (22, i) m = .fwd false [((4, 0), m)] := rfl
theorem n23 (a1 : String) (c : Ctx) (i : Nat) (m : Msg) : (sys a1 c).node (23, i) m = .obj (beh c (.none) 23 i m) := rfl
theorem n25 (a1 : String) (c : Ctx) (i : Nat) (m : Msg) : (sys a1 c).node (25, i) m = .obj (beh c (.none) 25 i m) := rfl
theorem o25_0 (a1 : String) (c : Ctx) : (sys a1 c).out 25 0 = [(0, 0)] := rfl
theorem n26 (a1 : String) (c : Ctx) (i : Nat) (m : Msg) : (sys a1 c).node (26, i) m = .obj (beh c (.none) 26 i m) := rfl
theorem o26_0 (a1 : String) (c : Ctx) : (sys a1 c).out 26 0 = [(0, 1)] := rfl
theorem n27 (a1 : String) (c : Ctx) (i : Nat) (m : Msg) : (sys a1 c).node (27, i) m = .obj (beh c (.probe 0) 27 i m) := rfl
theorem n28 (a1 : String) (c : Ctx) (i : Nat) (m : Msg) : (sys a1 c).node (28, i) m = .obj (beh c (.probe 1) 28 i m) := rfl
theorem n29 (a1 : String) (c : Ctx) (i : Nat) (m : Msg) : (sys a1 c).node (29, i) m = .obj (beh c (.probe 2) 29 i m) := rfl
theorem n30 (a1 : String) (c : Ctx) (i : Nat) (m : Msg) : (sys a1 c).node (30, i) m = .obj (beh c (.probe 3) 30 i m) := rfl
theorem n31 (a1 : String) (c : Ctx) (i : Nat) (m : Msg) : (sys a1 c).node (31, i) m = .obj (beh c (.probe 4) 31 i m) := rfl

attribute [lib_tabosc4] n0_0 n0_1 n1 n2 o2_0 n3 o3_0 n4 o4_0 n5 n6 n7 n8 n9 n10 n11 n12 n13 n14 n15 n16 o16_0 n17 o17_0 o17_1 n18 o18_0 o18_1 n22 n23 n25 o25_0 n26 o26_0 n27 n28 n29 n30 n31

end Verif.Lib.Tabosc4
