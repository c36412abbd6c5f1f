import Verif.LibSim
/-!
The abstraction `[tabread~]`: transcription of hvcc/interpreters/pd2hv/libs/pd/tabread~.pd and of the library files it uses, made by
tools/pdlib.py.  Object `0` is the abstraction itself, its outlets are connected to `.probe`s.
-/
set_option linter.unusedVariables false
set_option linter.style.longLine false
set_option maxRecDepth 100000
namespace Verif.Lib.TabreadS
open Verif.Control (Dest Kind Cast Patch)

/-- the objects of hvcc/interpreters/pd2hv/libs/pd/tabread~.pd: kind, connections of each outlet, class -/
def nodes (a1 : String) : List Node :=
  [⟨.graph [15], [], .none⟩,  -- 0: tabread~
   ⟨.obj, [], .none⟩,  -- 1: tabread~, object 0: outlet~ (makes a signal)
   ⟨.obj, [], .none⟩,  -- 2: tabread~, object 1: pd @hv_obj __cast~fi (makes a signal)
   ⟨.obj, [], .none⟩,  -- 3: tabread~, object 3: max~ 0 (makes a signal)
   ⟨.obj, [[(11, 0)]], .system⟩,  -- 4: tabread~, object 4: pd @hv_obj system
   ⟨.obj, [], .none⟩,  -- 5: tabread~, object 5: min~ (makes a signal)
   ⟨.obj, [[(4, 0)]], .msg [.lit (.sym "table"), .arg 0, .lit (.sym "size")]⟩,  -- 6: tabread~, object 7: table \$1 size
   ⟨.obj, [], .none⟩,  -- 7: tabread~, object 8: pd @hv_obj __tabread~if \$1 (makes a signal)
   ⟨.obj, [[(9, 0)], []], .switch [(.sym "set")]⟩,  -- 8: tabread~, object 9: pd @hv_obj __switchcase set
   ⟨.obj, [[(17, 0), (10, 0)], []], .slice 1 1⟩,  -- 9: tabread~, object 12: pd @hv_obj slice 1 1
   ⟨.obj, [[(6, 0)]], .var (.sym a1)⟩,  -- 10: tabread~, object 13: pd @hv_obj __var \$1
   ⟨.obj, [[(18, 0)]], .bink .sub 1⟩,  -- 11: tabread~, object 14: - 1
   ⟨.graph [], [[(10, 0)]], .none⟩,  -- 12: tabread~, object 15: loadbang -1
   ⟨.recv, [[(14, 0)]], .none⟩,  -- 13: loadbang, object 0: r __hv_init \$1
   ⟨.outlet 12 0, [], .none⟩,  -- 14: loadbang, object 1: outlet
   ⟨.inlet, [[(8, 0)]], .none⟩,  -- 15: tabread~, object 16: inlet~ -~>
   ⟨.obj, [[(0, 0)]], .none⟩,  -- 16: an object of the surrounding patch, connected to inlet 0
   ⟨.obj, [], .probe 0⟩,  -- 17: messages for tabread~, object 8: pd @hv_obj __tabread~if \$1, inlet 1
   ⟨.obj, [], .probe 1⟩]  -- 18: messages for tabread~, object 5: min~, inlet 1

/-- receivers by name, in the order of the file: 0 = __hv_init -/
def recvs : List (List Nat) := [[13]]

/-- priorities of receivers, PdReceiveObject.py:96-100 -/
def prio : Nat → Int
  | 13 => -1
  | _ => 0

/-- the receivers in the order in which they fire -/
def order : List (List Nat) := [[13]]

/-- the object connected to inlet `i` -/
def drv (i : Nat) : Nat := 16 + i

/-- the abstraction as it is (`Verif.Control`: C45, C35) -/
def mach (a1 : String) (c : Ctx) : Mach := source c (nodes a1) (recvsOf recvs) prio (recvsOf order)

/-- `M` is generated code -/
def Code (a1 : String) (c : Ctx) (M : Mach) : Prop := Compiled c (nodes a1) (recvsOf recvs) prio M

/-- what it means -/
def sys (a1 : String) (c : Ctx) : Control.Sys St Msg := (mach a1 c).sys

/-- kinds and connections -/
def shape : Shape :=
  [(.graph [15], []),
   (.obj, []),
   (.obj, []),
   (.obj, []),
   (.obj, [[(11, 0)]]),
   (.obj, []),
   (.obj, [[(4, 0)]]),
   (.obj, []),
   (.obj, [[(9, 0)], []]),
   (.obj, [[(17, 0), (10, 0)], []]),
   (.obj, [[(6, 0)]]),
   (.obj, [[(18, 0)]]),
   (.graph [], [[(10, 0)]]),
   (.recv, [[(14, 0)]]),
   (.outlet 12 0, []),
   (.inlet, [[(8, 0)]]),
   (.obj, [[(0, 0)]]),
   (.obj, []),
   (.obj, [])]

theorem shape_eq (a1 : String) : shapeOf (nodes a1) = shape := rfl

theorem checked (a1 : String) : check (shapeOf (nodes a1)) recvs order prio [0, 0, 0, 0, 0, 0, 0, 0, 0, 0, 0, 0, 0, 0, 0, 0, 0, 0, 0] = true := by
  rw [shape_eq]
  decide +kernel

theorem classes (a1 : String) : clsOK (nodes a1) = true := rfl

theorem drv_valid (a1 : String) {i : Nat} (h : i < 1) (m : Msg) : (Control.Src.outlet (drv i) 0 m).Valid (mkPatch (nodes a1) (recvsOf recvs) prio) (nodes a1).length := by
  have : i = 0 := by omega
  rcases this with rfl <;> exact ⟨Nat.le_of_ble_eq_true rfl, rfl, Nat.le_of_ble_eq_true rfl⟩

/-- messages for the inlets there are -/
def Inlet : Ev → Prop
  | .ext _ i _ => i < 1
  | .tick => True

theorem driven (a1 : String) {e : Ev} (h : Inlet e) : Driven (nodes a1) (recvsOf recvs) prio drv e := by
  cases e with
  | ext t i m => exact drv_valid a1 h
  | tick => trivial

theorem to_code {c : Ctx} {a1 : String} {M : Mach} (hM : Code a1 c M) {tab : Nat → List ℚ} {Fits : Ev → Prop} (hf : ∀ e, Fits e → Inlet e) {σ : Type}
    {on : σ → Ev → σ} {x0 : σ} {Sim : σ → St → Prop}
    (h : Simulates (mach a1 c) drv (start c (nodes a1) tab) Fits on x0 Sim) :
    Simulates M drv (start c (nodes a1) tab) Fits on x0 (fun x s => Sim x s ∧ GoodQ (nodes a1) s) :=
  h.code (checked a1) (classes a1) hM fun e he => driven a1 (hf e he)

/-- it compiles -/
theorem code_exists (a1 : String) (c : Ctx) : ∃ M, Code a1 c M := exists_compiled c (checked a1) (f := 20) (by rw [shape_eq]; decide +kernel)

/-! one lemma per object, for rewriting -/

theorem n0_0 (a1 : String) (c : Ctx) (m : Msg) : (sys a1 c).node (0, 0) m = .fwd false [((8, 0), m)] := rfl
theorem n1 (a1 : String) (c : Ctx) (i : Nat) (m : Msg) : (sys a1 c).node (1, i) m = .obj (beh c (.none) 1 i m) := rfl
theorem n2 (a1 : String) (c : Ctx) (i : Nat) (m : Msg) : (sys a1 c).node (2, i) m = .obj (beh c (.none) 2 i m) := rfl
theorem n3 (a1 : String) (c : Ctx) (i : Nat) (m : Msg) : (sys a1 c).node (3, i) m = .obj (beh c (.none) 3 i m) := rfl
theorem n4 (a1 : String) (c : Ctx) (i : Nat) (m : Msg) : (sys a1 c).node (4, i) m = .obj (beh c (.system) 4 i m) := rfl
theorem o4_0 (a1 : String) (c : Ctx) : (sys a1 c).out 4 0 = [(11, 0)] := rfl
theorem n5 (a1 : String) (c : Ctx) (i : Nat) (m : Msg) : (sys a1 c).node (5, i) m = .obj (beh c (.none) 5 i m) := rfl
theorem n6 (a1 : String) (c : Ctx) (i : Nat) (m : Msg) : (sys a1 c).node (6, i) m = .obj (beh c (.msg [.lit (.sym "table"), .arg 0, .lit (.sym "size")]) 6 i m) := rfl
theorem o6_0 (a1 : String) (c : Ctx) : (sys a1 c).out 6 0 = [(4, 0)] := rfl
theorem n7 (a1 : String) (c : Ctx) (i : Nat) (m : Msg) : (sys a1 c).node (7, i) m = .obj (beh c (.none) 7 i m) := rfl
theorem n8 (a1 : String) (c : Ctx) (i : Nat) (m : Msg) : (sys a1 c).node (8, i) m = .obj (beh c (.switch [(.sym "set")]) 8 i m) := rfl
theorem o8_0 (a1 : String) (c : Ctx) : (sys a1 c).out 8 0 = [(9, 0)] := rfl
theorem o8_1 (a1 : String) (c : Ctx) : (sys a1 c).out 8 1 = [] := rfl
theorem n9 (a1 : String) (c : Ctx) (i : Nat) (m : Msg) : (sys a1 c).node (9, i) m = .obj (beh c (.slice 1 1) 9 i m) := rfl
theorem o9_0 (a1 : String) (c : Ctx) : (sys a1 c).out 9 0 = [(17, 0), (10, 0)] := rfl
theorem o9_1 (a1 : String) (c : Ctx) : (sys a1 c).out 9 1 = [] := rfl
theorem n10 (a1 : String) (c : Ctx) (i : Nat) (m : Msg) : (sys a1 c).node (10, i) m = .obj (beh c (.var (.sym a1)) 10 i m) := rfl
theorem o10_0 (a1 : String) (c : Ctx) : (sys a1 c).out 10 0 = [(6, 0)] := rfl
theorem n11 (a1 : String) (c : Ctx) (i : Nat) (m : Msg) : (sys a1 c).node (11, i) m = .obj (beh c (.bink .sub 1) 11 i m) := rfl
theorem o11_0 (a1 : String) (c : Ctx) : (sys a1 c).out 11 0 = [(18, 0)] := rfl
theorem n14 (a1 : String) (c : Ctx) (i : Nat) (m : Msg) : (sys a1 c).node (14, i) m = .fwd false [((10, 0), m)] := rfl
theorem n16 (a1 : String) (c : Ctx) (i : Nat) (m : Msg) : (sys a1 c).node (16, i) m = .obj (beh c (.none) 16 i m) := rfl
theorem o16_0 (a1 : String) (c : Ctx) : (sys a1 c).out 16 0 = [(0, 0)] := rfl
theorem n17 (a1 : String) (c : Ctx) (i : Nat) (m : Msg) : (sys a1 c).node (17, i) m = .obj (beh c (.probe 0) 17 i m) := rfl
theorem n18 (a1 : String) (c : Ctx) (i : Nat) (m : Msg) : (sys a1 c).node (18, i) m = .obj (beh c (.probe 1) 18 i m) := rfl

attribute [lib_tabreads] n0_0 n1 n2 n3 n4 o4_0 n5 n6 o6_0 n7 n8 o8_0 o8_1 n9 o9_0 o9_1 n10 o10_0 n11 o11_0 n14 n16 o16_0 n17 n18

end Verif.Lib.TabreadS
