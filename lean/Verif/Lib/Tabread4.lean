import Verif.LibSim
/-!
The abstraction `[tabread4~]`: transcription of hvcc/interpreters/pd2hv/libs/pd/tabread4~.pd and of the library files it uses, made by
tools/pdlib.py.  Object `0` is the abstraction itself, its outlets are connected to `.probe`s.
-/
set_option linter.unusedVariables false
set_option linter.style.longLine false
set_option maxRecDepth 100000
namespace Verif.Lib.Tabread4
open Verif.Control (Dest Kind Cast Patch)

/-- the objects of hvcc/interpreters/pd2hv/libs/pd/tabread4~.pd: kind, connections of each outlet, class -/
def nodes (a1 : String) : List Node :=
  [⟨.graph [24, 23], [], .none⟩,  -- 0: tabread4~
   ⟨.obj, [], .none⟩,  -- 1: tabread4~, object 0: outlet~ (makes a signal)
   ⟨.obj, [], .none⟩,  -- 2: tabread4~, object 1: -~ (makes a signal)
   ⟨.obj, [], .none⟩,  -- 3: tabread4~, object 2: -~ (makes a signal)
   ⟨.obj, [], .none⟩,  -- 4: tabread4~, object 3: *~ (makes a signal)
   ⟨.obj, [], .none⟩,  -- 5: tabread4~, object 4: +~ (makes a signal)
   ⟨.obj, [], .none⟩,  -- 6: tabread4~, object 6: pd @hv_obj __cast~fi (makes a signal)
   ⟨.obj, [], .none⟩,  -- 7: tabread4~, object 7: pd @hv_obj __add~i (makes a signal)
   ⟨.obj, [], .none⟩,  -- 8: tabread4~, object 8: pd @hv_obj __var_k~i 1 (makes a signal)
   ⟨.obj, [], .none⟩,  -- 9: tabread4~, object 10: max~ 0 (makes a signal)
   ⟨.obj, [[(12, 0)]], .system⟩,  -- 10: tabread4~, object 11: pd @hv_obj system
   ⟨.obj, [], .none⟩,  -- 11: tabread4~, object 12: min~ (makes a signal)
   ⟨.obj, [[(27, 0)]], .bink .sub 2⟩,  -- 12: tabread4~, object 13: - 2
   ⟨.obj, [[(10, 0)]], .msg [.lit (.sym "table"), .arg 0, .lit (.sym "size")]⟩,  -- 13: tabread4~, object 15: table \$1 size
   ⟨.obj, [], .none⟩,  -- 14: tabread4~, object 16: pd @hv_obj __tabread~if \$1 (makes a signal)
   ⟨.obj, [], .none⟩,  -- 15: tabread4~, object 17: pd @hv_obj __tabread~if \$1 (makes a signal)
   ⟨.obj, [[(17, 0)], []], .switch [(.sym "set")]⟩,  -- 16: tabread4~, object 18: pd @hv_obj __switchcase set
   ⟨.obj, [[(28, 0), (29, 0), (18, 0)], []], .slice 1 1⟩,  -- 17: tabread4~, object 21: pd @hv_obj slice 1 1
   ⟨.obj, [[(13, 0)]], .var (.sym a1)⟩,  -- 18: tabread4~, object 22: pd @hv_obj __var \$1
   ⟨.graph [], [[(18, 0)]], .none⟩,  -- 19: tabread4~, object 23: loadbang -1
   ⟨.recv, [[(21, 0)]], .none⟩,  -- 20: loadbang, object 0: r __hv_init \$1
   ⟨.outlet 19 0, [], .none⟩,  -- 21: loadbang, object 1: outlet
   ⟨.obj, [], .none⟩,  -- 22: tabread4~, object 24: pd @hv_obj __floor~f (makes a signal)
   ⟨.inlet, [[]], .none⟩,  -- 23: tabread4~, object 25: inlet
   ⟨.inlet, [[(16, 0)]], .none⟩,  -- 24: tabread4~, object 27: inlet~ -~>
   ⟨.obj, [[(0, 0)]], .none⟩,  -- 25: an object of the surrounding patch, connected to inlet 0
   ⟨.obj, [[(0, 1)]], .none⟩,  -- 26: an object of the surrounding patch, connected to inlet 1
   ⟨.obj, [], .probe 0⟩,  -- 27: messages for tabread4~, object 12: min~, inlet 1
   ⟨.obj, [], .probe 1⟩,  -- 28: messages for tabread4~, object 16: pd @hv_obj __tabread~if \$1, inlet 1
   ⟨.obj, [], .probe 2⟩]  -- 29: messages for tabread4~, object 17: pd @hv_obj __tabread~if \$1, inlet 1

/-- receivers by name, in the order of the file: 0 = __hv_init -/
def recvs : List (List Nat) := [[20]]

/-- priorities of receivers, PdReceiveObject.py:96-100 -/
def prio : Nat → Int
  | 20 => -1
  | _ => 0

/-- the receivers in the order in which they fire -/
def order : List (List Nat) := [[20]]

/-- the object connected to inlet `i` -/
def drv (i : Nat) : Nat := 25 + i

/-- the abstraction as it is (`Verif.Control`: C45, C35) -/
def mach (a1 : String) (c : Ctx) : Mach := source c (nodes a1) (recvsOf recvs) prio (recvsOf order)

/-- `M` is generated code -/
def Code (a1 : String) (c : Ctx) (M : Mach) : Prop := Compiled c (nodes a1) (recvsOf recvs) prio M

/-- what it means -/
def sys (a1 : String) (c : Ctx) : Control.Sys St Msg := (mach a1 c).sys

/-- kinds and connections -/
def shape : Shape :=
  [(.graph [24, 23], []),
   (.obj, []),
   (.obj, []),
   (.obj, []),
   (.obj, []),
   (.obj, []),
   (.obj, []),
   (.obj, []),
   (.obj, []),
   (.obj, []),
   (.obj, [[(12, 0)]]),
   (.obj, []),
   (.obj, [[(27, 0)]]),
   (.obj, [[(10, 0)]]),
   (.obj, []),
   (.obj, []),
   (.obj, [[(17, 0)], []]),
   (.obj, [[(28, 0), (29, 0), (18, 0)], []]),
   (.obj, [[(13, 0)]]),
   (.graph [], [[(18, 0)]]),
   (.recv, [[(21, 0)]]),
   (.outlet 19 0, []),
   (.obj, []),
   (.inlet, [[]]),
   (.inlet, [[(16, 0)]]),
   (.obj, [[(0, 0)]]),
   (.obj, [[(0, 1)]]),
   (.obj, []),
   (.obj, []),
   (.obj, [])]

theorem shape_eq (a1 : String) : shapeOf (nodes a1) = shape := rfl

theorem checked (a1 : String) : check (shapeOf (nodes a1)) recvs order prio [0, 0, 0, 0, 0, 0, 0, 0, 0, 0, 0, 0, 0, 0, 0, 0, 0, 0, 0, 0, 0, 0, 0, 0, 0, 0, 0, 0, 0, 0] = true := by
  rw [shape_eq]
  decide +kernel

theorem classes (a1 : String) : clsOK (nodes a1) = true := rfl

theorem drv_valid (a1 : String) {i : Nat} (h : i < 2) (m : Msg) : (Control.Src.outlet (drv i) 0 m).Valid (mkPatch (nodes a1) (recvsOf recvs) prio) (nodes a1).length := by
  have : i = 0 ∨ i = 1 := by omega
  rcases this with rfl | rfl <;> exact ⟨Nat.le_of_ble_eq_true rfl, rfl, Nat.le_of_ble_eq_true rfl⟩

/-- messages for the inlets there are -/
def Inlet : Ev → Prop
  | .ext _ i _ => i < 2
  | .tick => True

theorem driven (a1 : String) {e : Ev} (h : Inlet e) : Driven (nodes a1) (recvsOf recvs) prio drv e := by
  cases e with
  | ext t i m => exact drv_valid a1 h
  | tick => trivial

theorem to_code {c : Ctx} {a1 : String} {M : Mach} (hM : Code a1 c M) {tab : Nat → List ℚ} {Fits : Ev → Prop} (hf : ∀ e, Fits e → Inlet e) {σ : Type}
    {on : σ → Ev → σ} {x0 : σ} {Sim : σ → St → Prop}
    (h : Simulates (mach a1 c) drv (start c (nodes a1) tab) Fits on x0 Sim) :
    Simulates M drv (start c (nodes a1) tab) Fits on x0 (fun x s => Sim x s ∧ GoodQ (nodes a1) s) :=
  h.code (checked a1) (classes a1) hM fun e he => driven a1 (hf e he)

/-- it compiles -/
theorem code_exists (a1 : String) (c : Ctx) : ∃ M, Code a1 c M := exists_compiled c (checked a1) (f := 20) (by rw [shape_eq]; decide +kernel)

/-! one lemma per object, for rewriting -/

theorem n0_0 (a1 : String) (c : Ctx) (m : Msg) : (sys a1 c).node (0, 0) m = .fwd false [((16, 0), m)] := rfl
theorem n0_1 (a1 : String) (c : Ctx) (m : Msg) : (sys a1 c).node (0, 1) m = .fwd false [] := rfl
theorem n1 (a1 : String) (c : Ctx) (i : Nat) (m : Msg) : (sys a1 c).node (1, i) m = .obj (beh c (.none) 1 i m) := rfl
theorem n2 (a1 : String) (c : Ctx) (i : Nat) (m : Msg) : (sys a1 c).node (2, i) m = .obj (beh c (.none) 2 i m) := rfl
theorem n3 (a1 : String) (c : Ctx) (i : Nat) (m : Msg) : (sys a1 c).node (3, i) m = .obj (beh c (.none) 3 i m) := rfl
theorem n4 (a1 : String) (c : Ctx) (i : Nat) (m : Msg) : (sys a1 c).node (4, i) m = .obj (beh c (.none) 4 i m) := rfl
theorem n5 (a1 : String) (c : Ctx) (i : Nat) (m : Msg) : (sys a1 c).node (5, i) m = .obj (beh c (.none) 5 i m) := rfl
theorem n6 (a1 : String) (c : Ctx) (i : Nat) (m : Msg) : (sys a1 c).node (6, i) m = .obj (beh c (.none) 6 i m) := rfl
theorem n7 (a1 : String) (c : Ctx) (i : Nat) (m : Msg) : (sys a1 c).node (7, i) m = .obj (beh c (.none) 7 i m) := rfl
theorem n8 (a1 : String) (c : Ctx) (i : Nat) (m : Msg) : (sys a1 c).node (8, i) m = .obj (beh c (.none) 8 i m) := rfl
theorem n9 (a1 : String) (c : Ctx) (i : Nat) (m : Msg) : (sys a1 c).node (9, i) m = .obj (beh c (.none) 9 i m) := rfl
theorem n10 (a1 : String) (c : Ctx) (i : Nat) (m : Msg) : (sys a1 c).node (10, i) m = .obj (beh c (.system) 10 i m) := rfl
theorem o10_0 (a1 : String) (c : Ctx) : (sys a1 c).out 10 0 = [(12, 0)] := rfl
theorem n11 (a1 : String) (c : Ctx) (i : Nat) (m : Msg) : (sys a1 c).node (11, i) m = .obj (beh c (.none) 11 i m) := rfl
theorem n12 (a1 : String) (c : Ctx) (i : Nat) (m : Msg) : (sys a1 c).node (12, i) m = .obj (beh c (.bink .sub 2) 12 i m) := rfl
theorem o12_0 (a1 : String) (c : Ctx) : (sys a1 c).out 12 0 = [(27, 0)] := rfl
theorem n13 (a1 : String) (c : Ctx) (i : Nat) (m : Msg) : (sys a1 c).node (13, i) m = .obj (beh c (.msg [.lit (.sym "table"), .arg 0, .lit (.sym "size")]) 13 i m) := rfl
theorem o13_0 (a1 : String) (c : Ctx) : (sys a1 c).out 13 0 = [(10, 0)] := rfl
theorem n14 (a1 : String) (c : Ctx) (i : Nat) (m : Msg) : (sys a1 c).node (14, i) m = .obj (beh c (.none) 14 i m) := rfl
theorem n15 (a1 : String) (c : Ctx) (i : Nat) (m : Msg) : (sys a1 c).node (15, i) m = .obj (beh c (.none) 15 i m) := rfl
theorem n16 (a1 : String) (c : Ctx) (i : Nat) (m : Msg) : (sys a1 c).node (16, i) m = .obj (beh c (.switch [(.sym "set")]) 16 i m) := rfl
theorem o16_0 (a1 : String) (c : Ctx) : (sys a1 c).out 16 0 = [(17, 0)] := rfl
theorem o16_1 (a1 : String) (c : Ctx) : (sys a1 c).out 16 1 = [] := rfl
theorem n17 (a1 : String) (c : Ctx) (i : Nat) (m : Msg) : (sys a1 c).node (17, i) m = .obj (beh c (.slice 1 1) 17 i m) := rfl
theorem o17_0 (a1 : String) (c : Ctx) : (sys a1 c).out 17 0 = [(28, 0), (29, 0), (18, 0)] := rfl
theorem o17_1 (a1 : String) (c : Ctx) : (sys a1 c).out 17 1 = [] := rfl
theorem n18 (a1 : String) (c : Ctx) (i : Nat) (m : Msg) : (sys a1 c).node (18, i) m = .obj (beh c (.var (.sym a1)) 18 i m) := rfl
theorem o18_0 (a1 : String) (c : Ctx) : (sys a1 c).out 18 0 = [(13, 0)] := rfl
theorem n21 (a1 : String) (c : Ctx) (i : Nat) (m : Msg) : (sys a1 c).node (21, i) m = .fwd false [((18, 0), m)] := rfl
theorem n22 (a1 : String) (c : Ctx) (i : Nat) (m : Msg) : (sys a1 c).node (22, i) m = .obj (beh c (.none) 22 i m) := rfl
theorem n25 (a1 : String) (c : Ctx) (i : Nat) (m : Msg) : (sys a1 c).node (25, i) m = .obj (beh c (.none) 25 i m) := rfl
theorem o25_0 (a1 : String) (c : Ctx) : (sys a1 c).out 25 0 = [(0, 0)] := rfl
theorem n26 (a1 : String) (c : Ctx) (i : Nat) (m : Msg) : (sys a1 c).node (26, i) m = .obj (beh c (.none) 26 i m) := rfl
theorem o26_0 (a1 : String) (c : Ctx) : (sys a1 c).out 26 0 = [(0, 1)] := rfl
theorem n27 (a1 : String) (c : Ctx) (i : Nat) (m : Msg) : (sys a1 c).node (27, i) m = .obj (beh c (.probe 0) 27 i m) := rfl
theorem n28 (a1 : String) (c : Ctx) (i : Nat) (m : Msg) : (sys a1 c).node (28, i) m = .obj (beh c (.probe 1) 28 i m) := rfl
theorem n29 (a1 : String) (c : Ctx) (i : Nat) (m : Msg) : (sys a1 c).node (29, i) m = .obj (beh c (.probe 2) 29 i m) := rfl

attribute [lib_tabread4] n0_0 n0_1 n1 n2 n3 n4 n5 n6 n7 n8 n9 n10 o10_0 n11 n12 o12_0 n13 o13_0 n14 n15 n16 o16_0 o16_1 n17 o17_0 o17_1 n18 o18_0 n21 n22 n25 o25_0 n26 o26_0 n27 n28 n29

end Verif.Lib.Tabread4
