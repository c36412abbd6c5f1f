import Verif.LibSim
/-!
The abstraction `[ctlin]`: transcription of hvcc/interpreters/pd2hv/libs/pd/ctlin.pd and of the library files it uses, made by
tools/pdlib.py.  Object `0` is the abstraction itself, its outlets are connected to `.probe`s.
-/
set_option linter.unusedVariables false
set_option linter.style.longLine false
set_option maxRecDepth 100000
namespace Verif.Lib.Ctlin
open Verif.Control (Dest Kind Cast Patch)

/-- the objects of hvcc/interpreters/pd2hv/libs/pd/ctlin.pd: kind, connections of each outlet, class -/
def nodes (a1 : ℚ) (a2 : ℚ) : List Node :=
  [⟨.graph [], [[(119, 0)], [(120, 0)], [(121, 0)]], .none⟩,  -- 0: ctlin
   ⟨.outlet 0 0, [], .none⟩,  -- 1: ctlin, object 0: outlet
   ⟨.outlet 0 1, [], .none⟩,  -- 2: ctlin, object 1: outlet
   ⟨.outlet 0 2, [], .none⟩,  -- 3: ctlin, object 2: outlet
   ⟨.graph [], [[(8, 0)]], .none⟩,  -- 4: ctlin, object 3: loadbang
   ⟨.recv, [[(6, 0)]], .none⟩,  -- 5: loadbang, object 0: r __hv_init \$1
   ⟨.outlet 4 0, [], .none⟩,  -- 6: loadbang, object 1: outlet
   ⟨.recv, [[(45, 0)]], .none⟩,  -- 7: ctlin, object 5: r __hv_ctlin
   ⟨.seq [none, none], [[(9, 0)], [(27, 0)]], .none⟩,  -- 8: ctlin, object 6: t a a
   ⟨.graph [10, 11], [[(56, 0)]], .none⟩,  -- 9: ctlin, object 7: i \$1
   ⟨.inlet, [[(13, 0)]], .none⟩,  -- 10: i, object 0: inlet
   ⟨.inlet, [[(13, 1)]], .none⟩,  -- 11: i, object 1: inlet
   ⟨.outlet 9 0, [], .none⟩,  -- 12: i, object 2: outlet
   ⟨.graph [14, 20], [[(12, 0)]], .none⟩,  -- 13: i, object 4: int \$1
   ⟨.inlet, [[(15, 0)]], .none⟩,  -- 14: int, object 0: inlet
   ⟨.graph [18, 19], [[(26, 0)]], .none⟩,  -- 15: int, object 1: f \$1
   ⟨.obj, [[(17, 0)]], .var (.float a1)⟩,  -- 16: f, object 1: pd @hv_obj __var \$1
   ⟨.outlet 15 0, [], .none⟩,  -- 17: f, object 2: outlet
   ⟨.inlet, [[(16, 0)]], .none⟩,  -- 18: f, object 3: inlet -->
   ⟨.inlet, [[(16, 1)]], .none⟩,  -- 19: f, object 4: inlet -->
   ⟨.inlet, [[(15, 1)]], .none⟩,  -- 20: int, object 2: inlet
   ⟨.outlet 13 0, [], .none⟩,  -- 21: int, object 3: outlet
   ⟨.obj, [[(25, 0)], [(24, 0)]], .ite a1⟩,  -- 22: int, object 4: pd @hv_obj if \$1
   ⟨.obj, [[(22, 1)]], .bink .gt 0⟩,  -- 23: int, object 5: > 0
   ⟨.obj, [[(21, 0)]], .un .floor⟩,  -- 24: int, object 6: pd @hv_obj __floor
   ⟨.obj, [[(21, 0)]], .un .ceil⟩,  -- 25: int, object 7: pd @hv_obj __ceil
   ⟨.seq [none, none], [[(22, 0)], [(23, 0)]], .none⟩,  -- 26: int, object 9: t a a
   ⟨.graph [28, 29], [[(99, 0)]], .none⟩,  -- 27: ctlin, object 8: i \$2
   ⟨.inlet, [[(31, 0)]], .none⟩,  -- 28: i, object 0: inlet
   ⟨.inlet, [[(31, 1)]], .none⟩,  -- 29: i, object 1: inlet
   ⟨.outlet 27 0, [], .none⟩,  -- 30: i, object 2: outlet
   ⟨.graph [32, 38], [[(30, 0)]], .none⟩,  -- 31: i, object 4: int \$1
   ⟨.inlet, [[(33, 0)]], .none⟩,  -- 32: int, object 0: inlet
   ⟨.graph [36, 37], [[(44, 0)]], .none⟩,  -- 33: int, object 1: f \$1
   ⟨.obj, [[(35, 0)]], .var (.float a2)⟩,  -- 34: f, object 1: pd @hv_obj __var \$1
   ⟨.outlet 33 0, [], .none⟩,  -- 35: f, object 2: outlet
   ⟨.inlet, [[(34, 0)]], .none⟩,  -- 36: f, object 3: inlet -->
   ⟨.inlet, [[(34, 1)]], .none⟩,  -- 37: f, object 4: inlet -->
   ⟨.inlet, [[(33, 1)]], .none⟩,  -- 38: int, object 2: inlet
   ⟨.outlet 31 0, [], .none⟩,  -- 39: int, object 3: outlet
   ⟨.obj, [[(43, 0)], [(42, 0)]], .ite a2⟩,  -- 40: int, object 4: pd @hv_obj if \$1
   ⟨.obj, [[(40, 1)]], .bink .gt 0⟩,  -- 41: int, object 5: > 0
   ⟨.obj, [[(39, 0)]], .un .floor⟩,  -- 42: int, object 6: pd @hv_obj __floor
   ⟨.obj, [[(39, 0)]], .un .ceil⟩,  -- 43: int, object 7: pd @hv_obj __ceil
   ⟨.seq [none, none], [[(40, 0)], [(41, 0)]], .none⟩,  -- 44: int, object 9: t a a
   ⟨.graph [46], [[(58, 0), (68, 0)], [(63, 0), (55, 0)], [(53, 0)]], .none⟩,  -- 45: ctlin, object 9: unpack f f f
   ⟨.inlet, [[(47, 0), (49, 0), (51, 0)]], .none⟩,  -- 46: ctlin, object 9: unpack f f f
   ⟨.obj, [[(48, 0)], []], .slice 2 1⟩,  -- 47: ctlin, object 9: unpack f f f
   ⟨.outlet 45 2, [], .none⟩,  -- 48: ctlin, object 9: unpack f f f
   ⟨.obj, [[(50, 0)], []], .slice 1 1⟩,  -- 49: ctlin, object 9: unpack f f f
   ⟨.outlet 45 1, [], .none⟩,  -- 50: ctlin, object 9: unpack f f f
   ⟨.obj, [[(52, 0)], []], .slice 0 1⟩,  -- 51: ctlin, object 9: unpack f f f
   ⟨.outlet 45 0, [], .none⟩,  -- 52: ctlin, object 9: unpack f f f
   ⟨.obj, [[(54, 0)]], .bink .add 1⟩,  -- 53: ctlin, object 10: + 1
   ⟨.obj, [[(101, 0)]], .bink .max 1⟩,  -- 54: ctlin, object 11: max 1
   ⟨.obj, [[(117, 0)]], .bin .eq 0⟩,  -- 55: ctlin, object 12: ==
   ⟨.seq [some .float, some .float], [[(57, 0)], [(55, 1)]], .none⟩,  -- 56: ctlin, object 13: t f f
   ⟨.obj, [[(118, 0)]], .bink .eq 0⟩,  -- 57: ctlin, object 14: == 0
   ⟨.graph [59, 60], [[(1, 0)]], .none⟩,  -- 58: ctlin, object 15: spigot
   ⟨.inlet, [[(62, 0)]], .none⟩,  -- 59: spigot, object 0: inlet
   ⟨.inlet, [[(62, 1)]], .none⟩,  -- 60: spigot, object 1: inlet
   ⟨.outlet 58 0, [], .none⟩,  -- 61: spigot, object 2: outlet
   ⟨.obj, [[], [(61, 0)]], .ite 0⟩,  -- 62: spigot, object 4: pd @hv_obj if \$1
   ⟨.graph [64, 65], [[(2, 0)]], .none⟩,  -- 63: ctlin, object 16: spigot
   ⟨.inlet, [[(67, 0)]], .none⟩,  -- 64: spigot, object 0: inlet
   ⟨.inlet, [[(67, 1)]], .none⟩,  -- 65: spigot, object 1: inlet
   ⟨.outlet 63 0, [], .none⟩,  -- 66: spigot, object 2: outlet
   ⟨.obj, [[], [(66, 0)]], .ite 0⟩,  -- 67: spigot, object 4: pd @hv_obj if \$1
   ⟨.graph [69, 70], [[(78, 0)]], .none⟩,  -- 68: ctlin, object 17: spigot
   ⟨.inlet, [[(72, 0)]], .none⟩,  -- 69: spigot, object 0: inlet
   ⟨.inlet, [[(72, 1)]], .none⟩,  -- 70: spigot, object 1: inlet
   ⟨.outlet 68 0, [], .none⟩,  -- 71: spigot, object 2: outlet
   ⟨.obj, [[], [(71, 0)]], .ite 0⟩,  -- 72: spigot, object 4: pd @hv_obj if \$1
   ⟨.graph [74, 75], [[(89, 0)]], .none⟩,  -- 73: ctlin, object 19: spigot 1
   ⟨.inlet, [[(77, 0)]], .none⟩,  -- 74: spigot, object 0: inlet
   ⟨.inlet, [[(77, 1)]], .none⟩,  -- 75: spigot, object 1: inlet
   ⟨.outlet 73 0, [], .none⟩,  -- 76: spigot, object 2: outlet
   ⟨.obj, [[], [(76, 0)]], .ite 1⟩,  -- 77: spigot, object 4: pd @hv_obj if \$1
   ⟨.graph [79, 80], [[(84, 0)]], .none⟩,  -- 78: ctlin, object 20: spigot 1
   ⟨.inlet, [[(82, 0)]], .none⟩,  -- 79: spigot, object 0: inlet
   ⟨.inlet, [[(82, 1)]], .none⟩,  -- 80: spigot, object 1: inlet
   ⟨.outlet 78 0, [], .none⟩,  -- 81: spigot, object 2: outlet
   ⟨.obj, [[], [(81, 0)]], .ite 1⟩,  -- 82: spigot, object 4: pd @hv_obj if \$1
   ⟨.obj, [[(78, 1)]], .bink .eq 0⟩,  -- 83: ctlin, object 21: == 0
   ⟨.graph [85, 86], [[(1, 0)]], .none⟩,  -- 84: ctlin, object 24: spigot 1
   ⟨.inlet, [[(88, 0)]], .none⟩,  -- 85: spigot, object 0: inlet
   ⟨.inlet, [[(88, 1)]], .none⟩,  -- 86: spigot, object 1: inlet
   ⟨.outlet 84 0, [], .none⟩,  -- 87: spigot, object 2: outlet
   ⟨.obj, [[], [(87, 0)]], .ite 1⟩,  -- 88: spigot, object 4: pd @hv_obj if \$1
   ⟨.graph [90, 91], [[(2, 0)]], .none⟩,  -- 89: ctlin, object 25: spigot 1
   ⟨.inlet, [[(93, 0)]], .none⟩,  -- 90: spigot, object 0: inlet
   ⟨.inlet, [[(93, 1)]], .none⟩,  -- 91: spigot, object 1: inlet
   ⟨.outlet 89 0, [], .none⟩,  -- 92: spigot, object 2: outlet
   ⟨.obj, [[], [(92, 0)]], .ite 1⟩,  -- 93: spigot, object 4: pd @hv_obj if \$1
   ⟨.graph [95, 96], [[(104, 0)]], .none⟩,  -- 94: ctlin, object 26: spigot
   ⟨.inlet, [[(98, 0)]], .none⟩,  -- 95: spigot, object 0: inlet
   ⟨.inlet, [[(98, 1)]], .none⟩,  -- 96: spigot, object 1: inlet
   ⟨.outlet 94 0, [], .none⟩,  -- 97: spigot, object 2: outlet
   ⟨.obj, [[], [(97, 0)]], .ite 0⟩,  -- 98: spigot, object 4: pd @hv_obj if \$1
   ⟨.seq [some .float, some .float], [[(104, 1)], [(102, 0)]], .none⟩,  -- 99: ctlin, object 27: t f f
   ⟨.obj, [[(94, 1)]], .bink .neq 0⟩,  -- 100: ctlin, object 28: != 0
   ⟨.seq [some .float, some .float], [[(105, 0)], [(94, 0)]], .none⟩,  -- 101: ctlin, object 29: t f f
   ⟨.seq [none, none], [[(103, 0)], [(100, 0)]], .none⟩,  -- 102: ctlin, object 30: t a a
   ⟨.obj, [[(89, 1)]], .bink .eq 0⟩,  -- 103: ctlin, object 31: == 0
   ⟨.obj, [[(84, 1)]], .bin .eq 0⟩,  -- 104: ctlin, object 32: ==
   ⟨.seq [some .float, some .float], [[(111, 1)], [(106, 0)]], .none⟩,  -- 105: ctlin, object 34: t f f
   ⟨.graph [107, 108], [[(3, 0)]], .none⟩,  -- 106: ctlin, object 35: spigot
   ⟨.inlet, [[(110, 0)]], .none⟩,  -- 107: spigot, object 0: inlet
   ⟨.inlet, [[(110, 1)]], .none⟩,  -- 108: spigot, object 1: inlet
   ⟨.outlet 106 0, [], .none⟩,  -- 109: spigot, object 2: outlet
   ⟨.obj, [[], [(109, 0)]], .ite 0⟩,  -- 110: spigot, object 4: pd @hv_obj if \$1
   ⟨.graph [114, 115], [[(73, 0)]], .none⟩,  -- 111: ctlin, object 38: f
   ⟨.obj, [[(113, 0)]], .var (.float 0)⟩,  -- 112: f, object 1: pd @hv_obj __var \$1
   ⟨.outlet 111 0, [], .none⟩,  -- 113: f, object 2: outlet
   ⟨.inlet, [[(112, 0)]], .none⟩,  -- 114: f, object 3: inlet -->
   ⟨.inlet, [[(112, 1)]], .none⟩,  -- 115: f, object 4: inlet -->
   ⟨.seq [none], [[(106, 1)]], .none⟩,  -- 116: ctlin, object 39: t a
   ⟨.seq [some .float, some .bang, some .float], [[(68, 1)], [(111, 0)], [(73, 1)]], .none⟩,  -- 117: ctlin, object 42: t f b f
   ⟨.seq [some .float, some .float, some .float, some .float], [[(83, 0)], [(58, 1)], [(63, 1)], [(116, 0)]], .none⟩,  -- 118: ctlin, object 43: t f f f f
   ⟨.obj, [], .probe 0⟩,  -- 119: outlet 0 of the abstraction
   ⟨.obj, [], .probe 1⟩,  -- 120: outlet 1 of the abstraction
   ⟨.obj, [], .probe 2⟩,  -- 121: outlet 2 of the abstraction
   ⟨.obj, [[(123, 0)]], .none⟩,  -- 122: what sends messages to __hv_ctlin: number 0
   ⟨.send 1, [[]], .none⟩]  -- 123: to __hv_ctlin

/-- receivers by name, in the order of the file: 0 = __hv_init, 1 = __hv_ctlin -/
def recvs : List (List Nat) := [[5], [7]]

/-- priorities of receivers, PdReceiveObject.py:96-100 -/
def prio : Nat → Int
  | 5 => 999
  | 7 => -2
  | _ => 0

/-- the receivers in the order in which they fire -/
def order : List (List Nat) := [[5], [7]]

/-- the object connected to inlet `i` -/
def drv (i : Nat) : Nat := 122 + i

/-- the abstraction as it is (`Verif.Control`: C45, C35) -/
def mach (a1 : ℚ) (a2 : ℚ) (c : Ctx) : Mach := source c (nodes a1 a2) (recvsOf recvs) prio (recvsOf order)

/-- `M` is generated code -/
def Code (a1 : ℚ) (a2 : ℚ) (c : Ctx) (M : Mach) : Prop := Compiled c (nodes a1 a2) (recvsOf recvs) prio M

/-- what it means -/
def sys (a1 : ℚ) (a2 : ℚ) (c : Ctx) : Control.Sys St Msg := (mach a1 a2 c).sys

/-- kinds and connections -/
def shape : Shape :=
  [(.graph [], [[(119, 0)], [(120, 0)], [(121, 0)]]),
   (.outlet 0 0, []),
   (.outlet 0 1, []),
   (.outlet 0 2, []),
   (.graph [], [[(8, 0)]]),
   (.recv, [[(6, 0)]]),
   (.outlet 4 0, []),
   (.recv, [[(45, 0)]]),
   (.seq [none, none], [[(9, 0)], [(27, 0)]]),
   (.graph [10, 11], [[(56, 0)]]),
   (.inlet, [[(13, 0)]]),
   (.inlet, [[(13, 1)]]),
   (.outlet 9 0, []),
   (.graph [14, 20], [[(12, 0)]]),
   (.inlet, [[(15, 0)]]),
   (.graph [18, 19], [[(26, 0)]]),
   (.obj, [[(17, 0)]]),
   (.outlet 15 0, []),
   (.inlet, [[(16, 0)]]),
   (.inlet, [[(16, 1)]]),
   (.inlet, [[(15, 1)]]),
   (.outlet 13 0, []),
   (.obj, [[(25, 0)], [(24, 0)]]),
   (.obj, [[(22, 1)]]),
   (.obj, [[(21, 0)]]),
   (.obj, [[(21, 0)]]),
   (.seq [none, none], [[(22, 0)], [(23, 0)]]),
   (.graph [28, 29], [[(99, 0)]]),
   (.inlet, [[(31, 0)]]),
   (.inlet, [[(31, 1)]]),
   (.outlet 27 0, []),
   (.graph [32, 38], [[(30, 0)]]),
   (.inlet, [[(33, 0)]]),
   (.graph [36, 37], [[(44, 0)]]),
   (.obj, [[(35, 0)]]),
   (.outlet 33 0, []),
   (.inlet, [[(34, 0)]]),
   (.inlet, [[(34, 1)]]),
   (.inlet, [[(33, 1)]]),
   (.outlet 31 0, []),
   (.obj, [[(43, 0)], [(42, 0)]]),
   (.obj, [[(40, 1)]]),
   (.obj, [[(39, 0)]]),
   (.obj, [[(39, 0)]]),
   (.seq [none, none], [[(40, 0)], [(41, 0)]]),
   (.graph [46], [[(58, 0), (68, 0)], [(63, 0), (55, 0)], [(53, 0)]]),
   (.inlet, [[(47, 0), (49, 0), (51, 0)]]),
   (.obj, [[(48, 0)], []]),
   (.outlet 45 2, []),
   (.obj, [[(50, 0)], []]),
   (.outlet 45 1, []),
   (.obj, [[(52, 0)], []]),
   (.outlet 45 0, []),
   (.obj, [[(54, 0)]]),
   (.obj, [[(101, 0)]]),
   (.obj, [[(117, 0)]]),
   (.seq [some .float, some .float], [[(57, 0)], [(55, 1)]]),
   (.obj, [[(118, 0)]]),
   (.graph [59, 60], [[(1, 0)]]),
   (.inlet, [[(62, 0)]]),
   (.inlet, [[(62, 1)]]),
   (.outlet 58 0, []),
   (.obj, [[], [(61, 0)]]),
   (.graph [64, 65], [[(2, 0)]]),
   (.inlet, [[(67, 0)]]),
   (.inlet, [[(67, 1)]]),
   (.outlet 63 0, []),
   (.obj, [[], [(66, 0)]]),
   (.graph [69, 70], [[(78, 0)]]),
   (.inlet, [[(72, 0)]]),
   (.inlet, [[(72, 1)]]),
   (.outlet 68 0, []),
   (.obj, [[], [(71, 0)]]),
   (.graph [74, 75], [[(89, 0)]]),
   (.inlet, [[(77, 0)]]),
   (.inlet, [[(77, 1)]]),
   (.outlet 73 0, []),
   (.obj, [[], [(76, 0)]]),
   (.graph [79, 80], [[(84, 0)]]),
   (.inlet, [[(82, 0)]]),
   (.inlet, [[(82, 1)]]),
   (.outlet 78 0, []),
   (.obj, [[], [(81, 0)]]),
   (.obj, [[(78, 1)]]),
   (.graph [85, 86], [[(1, 0)]]),
   (.inlet, [[(88, 0)]]),
   (.inlet, [[(88, 1)]]),
   (.outlet 84 0, []),
   (.obj, [[], [(87, 0)]]),
   (.graph [90, 91], [[(2, 0)]]),
   (.inlet, [[(93, 0)]]),
   (.inlet, [[(93, 1)]]),
   (.outlet 89 0, []),
   (.obj, [[], [(92, 0)]]),
   (.graph [95, 96], [[(104, 0)]]),
   (.inlet, [[(98, 0)]]),
   (.inlet, [[(98, 1)]]),
   (.outlet 94 0, []),
   (.obj, [[], [(97, 0)]]),
   (.seq [some .float, some .float], [[(104, 1)], [(102, 0)]]),
   (.obj, [[(94, 1)]]),
   (.seq [some .float, some .float], [[(105, 0)], [(94, 0)]]),
   (.seq [none, none], [[(103, 0)], [(100, 0)]]),
   (.obj, [[(89, 1)]]),
   (.obj, [[(84, 1)]]),
   (.seq [some .float, some .float], [[(111, 1)], [(106, 0)]]),
   (.graph [107, 108], [[(3, 0)]]),
   (.inlet, [[(110, 0)]]),
   (.inlet, [[(110, 1)]]),
   (.outlet 106 0, []),
   (.obj, [[], [(109, 0)]]),
   (.graph [114, 115], [[(73, 0)]]),
   (.obj, [[(113, 0)]]),
   (.outlet 111 0, []),
   (.inlet, [[(112, 0)]]),
   (.inlet, [[(112, 1)]]),
   (.seq [none], [[(106, 1)]]),
   (.seq [some .float, some .bang, some .float], [[(68, 1)], [(111, 0)], [(73, 1)]]),
   (.seq [some .float, some .float, some .float, some .float], [[(83, 0)], [(58, 1)], [(63, 1)], [(116, 0)]]),
   (.obj, []),
   (.obj, []),
   (.obj, []),
   (.obj, [[(123, 0)]]),
   (.send 1, [[]])]

theorem shape_eq (a1 : ℚ) (a2 : ℚ) : shapeOf (nodes a1 a2) = shape := rfl

theorem checked (a1 : ℚ) (a2 : ℚ) : check (shapeOf (nodes a1 a2)) recvs order prio [0, 0, 0, 0, 0, 0, 0, 0, 1, 0, 0, 0, 0, 0, 0, 0, 0, 0, 0, 0, 0, 0, 0, 0, 0, 0, 1, 0, 0, 0, 0, 0, 0, 0, 0, 0, 0, 0, 0, 0, 0, 0, 0, 0, 1, 0, 0, 0, 0, 0, 0, 0, 0, 0, 0, 0, 1, 0, 0, 0, 0, 0, 0, 0, 0, 0, 0, 0, 0, 0, 0, 0, 0, 0, 0, 0, 0, 0, 0, 0, 0, 0, 0, 0, 0, 0, 0, 0, 0, 0, 0, 0, 0, 0, 0, 0, 0, 0, 0, 2, 0, 2, 1, 0, 0, 1, 0, 0, 0, 0, 0, 0, 0, 0, 0, 0, 1, 1, 2, 0, 0, 0, 0, 0] = true := by
  rw [shape_eq]
  decide +kernel

theorem classes (a1 : ℚ) (a2 : ℚ) : clsOK (nodes a1 a2) = true := rfl

theorem drv_valid (a1 : ℚ) (a2 : ℚ) {i : Nat} (h : i < 1) (m : Msg) : (Control.Src.outlet (drv i) 0 m).Valid (mkPatch (nodes a1 a2) (recvsOf recvs) prio) (nodes a1 a2).length := by
  have : i = 0 := by omega
  rcases this with rfl <;> exact ⟨Nat.le_of_ble_eq_true rfl, rfl, Nat.le_of_ble_eq_true rfl⟩

/-- messages for the inlets there are -/
def Inlet : Ev → Prop
  | .ext _ i _ => i < 1
  | .tick => True

theorem driven (a1 : ℚ) (a2 : ℚ) {e : Ev} (h : Inlet e) : Driven (nodes a1 a2) (recvsOf recvs) prio drv e := by
  cases e with
  | ext t i m => exact drv_valid a1 a2 h
  | tick => trivial

theorem to_code {c : Ctx} {a1 : ℚ} {a2 : ℚ} {M : Mach} (hM : Code a1 a2 c M) {tab : Nat → List ℚ} {Fits : Ev → Prop} (hf : ∀ e, Fits e → Inlet e) {σ : Type}
    {on : σ → Ev → σ} {x0 : σ} {Sim : σ → St → Prop}
    (h : Simulates (mach a1 a2 c) drv (start c (nodes a1 a2) tab) Fits on x0 Sim) :
    Simulates M drv (start c (nodes a1 a2) tab) Fits on x0 (fun x s => Sim x s ∧ GoodQ (nodes a1 a2) s) :=
  h.code (checked a1 a2) (classes a1 a2) hM fun e he => driven a1 a2 (hf e he)

/-- it compiles -/
theorem code_exists (a1 : ℚ) (a2 : ℚ) (c : Ctx) : ∃ M, Code a1 a2 c M := exists_compiled c (checked a1 a2) (f := 20) (by rw [shape_eq]; decide +kernel)

/-! one lemma per object, for rewriting -/

theorem n1 (a1 : ℚ) (a2 : ℚ) (c : Ctx) (i : Nat) (m : Msg) : (sys a1 a2 c).node (1, i) m = .fwd false [((119, 0), m)] := rfl
theorem n2 (a1 : ℚ) (a2 : ℚ) (c : Ctx) (i : Nat) (m : Msg) : (sys a1 a2 c).node (2, i) m = .fwd false [((120, 0), m)] := rfl
theorem n3 (a1 : ℚ) (a2 : ℚ) (c : Ctx) (i : Nat) (m : Msg) : (sys a1 a2 c).node (3, i) m = .fwd false [((121, 0), m)] := rfl
theorem n6 (a1 : ℚ) (a2 : ℚ) (c : Ctx) (i : Nat) (m : Msg) : (sys a1 a2 c).node (6, i) m = .fwd false [((8, 0), m)] := rfl
theorem n8 (a1 : ℚ) (a2 : ℚ) (c : Ctx) (i : Nat) (m : Msg) : (sys a1 a2 c).node (8, i) m = .fwd false ([((27, 0), m)] ++ ([((9, 0), m)] ++ ([]))) := rfl
theorem n9_0 (a1 : ℚ) (a2 : ℚ) (c : Ctx) (m : Msg) : (sys a1 a2 c).node (9, 0) m = .fwd false [((13, 0), m)] := rfl
theorem n9_1 (a1 : ℚ) (a2 : ℚ) (c : Ctx) (m : Msg) : (sys a1 a2 c).node (9, 1) m = .fwd false [((13, 1), m)] := rfl
theorem n12 (a1 : ℚ) (a2 : ℚ) (c : Ctx) (i : Nat) (m : Msg) : (sys a1 a2 c).node (12, i) m = .fwd false [((56, 0), m)] := rfl
theorem n13_0 (a1 : ℚ) (a2 : ℚ) (c : Ctx) (m : Msg) : (sys a1 a2 c).node (13, 0) m = .fwd false [((15, 0), m)] := rfl
theorem n13_1 (a1 : ℚ) (a2 : ℚ) (c : Ctx) (m : Msg) : (sys a1 a2 c).node (13, 1) m = .fwd false [((15, 1), m)] := rfl
theorem n15_0 (a1 : ℚ) (a2 : ℚ) (c : Ctx) (m : Msg) : (sys a1 a2 c).node (15, 0) m = .fwd false [((16, 0), m)] := rfl
theorem n15_1 (a1 : ℚ) (a2 : ℚ) (c : Ctx) (m : Msg) : (sys a1 a2 c).node (15, 1) m = .fwd false [((16, 1), m)] := rfl
theorem n16 (a1 : ℚ) (a2 : ℚ) (c : Ctx) (i : Nat) (m : Msg) : (sys a1 a2 c).node (16, i) m = .obj (beh c (.var (.float a1)) 16 i m) := rfl
theorem o16_0 (a1 : ℚ) (a2 : ℚ) (c : Ctx) : (sys a1 a2 c).out 16 0 = [(17, 0)] := rfl
theorem n17 (a1 : ℚ) (a2 : ℚ) (c : Ctx) (i : Nat) (m : Msg) : (sys a1 a2 c).node (17, i) m = .fwd false [((26, 0), m)] := rfl
theorem n21 (a1 : ℚ) (a2 : ℚ) (c : Ctx) (i : Nat) (m : Msg) : (sys a1 a2 c).node (21, i) m = .fwd false [((12, 0), m)] := rfl
theorem n22 (a1 : ℚ) (a2 : ℚ) (c : Ctx) (i : Nat) (m : Msg) : (sys a1 a2 c).node (22, i) m = .obj (beh c (.ite a1) 22 i m) := rfl
theorem o22_0 (a1 : ℚ) (a2 : ℚ) (c : Ctx) : (sys a1 a2 c).out 22 0 = [(25, 0)] := rfl
theorem o22_1 (a1 : ℚ) (a2 : ℚ) (c : Ctx) : (sys a1 a2 c).out 22 1 = [(24, 0)] := rfl
theorem n23 (a1 : ℚ) (a2 : ℚ) (c : Ctx) (i : Nat) (m : Msg) : (sys a1 a2 c).node (23, i) m = .obj (beh c (.bink .gt 0) 23 i m) := rfl
theorem o23_0 (a1 : ℚ) (a2 : ℚ) (c : Ctx) : (sys a1 a2 c).out 23 0 = [(22, 1)] := rfl
theorem n24 (a1 : ℚ) (a2 : ℚ) (c : Ctx) (i : Nat) (m : Msg) : (sys a1 a2 c).node (24, i) m = .obj (beh c (.un .floor) 24 i m) := rfl
theorem o24_0 (a1 : ℚ) (a2 : ℚ) (c : Ctx) : (sys a1 a2 c).out 24 0 = [(21, 0)] := rfl
theorem n25 (a1 : ℚ) (a2 : ℚ) (c : Ctx) (i : Nat) (m : Msg) : (sys a1 a2 c).node (25, i) m = .obj (beh c (.un .ceil) 25 i m) := rfl
theorem o25_0 (a1 : ℚ) (a2 : ℚ) (c : Ctx) : (sys a1 a2 c).out 25 0 = [(21, 0)] := rfl
theorem n26 (a1 : ℚ) (a2 : ℚ) (c : Ctx) (i : Nat) (m : Msg) : (sys a1 a2 c).node (26, i) m = .fwd false ([((23, 0), m)] ++ ([((22, 0), m)] ++ ([]))) := rfl
theorem n27_0 (a1 : ℚ) (a2 : ℚ) (c : Ctx) (m : Msg) : (sys a1 a2 c).node (27, 0) m = .fwd false [((31, 0), m)] := rfl
theorem n27_1 (a1 : ℚ) (a2 : ℚ) (c : Ctx) (m : Msg) : (sys a1 a2 c).node (27, 1) m = .fwd false [((31, 1), m)] := rfl
theorem n30 (a1 : ℚ) (a2 : ℚ) (c : Ctx) (i : Nat) (m : Msg) : (sys a1 a2 c).node (30, i) m = .fwd false [((99, 0), m)] := rfl
theorem n31_0 (a1 : ℚ) (a2 : ℚ) (c : Ctx) (m : Msg) : (sys a1 a2 c).node (31, 0) m = .fwd false [((33, 0), m)] := rfl
theorem n31_1 (a1 : ℚ) (a2 : ℚ) (c : Ctx) (m : Msg) : (sys a1 a2 c).node (31, 1) m = .fwd false [((33, 1), m)] := rfl
theorem n33_0 (a1 : ℚ) (a2 : ℚ) (c : Ctx) (m : Msg) : (sys a1 a2 c).node (33, 0) m = .fwd false [((34, 0), m)] := rfl
theorem n33_1 (a1 : ℚ) (a2 : ℚ) (c : Ctx) (m : Msg) : (sys a1 a2 c).node (33, 1) m = .fwd false [((34, 1), m)] := rfl
theorem n34 (a1 : ℚ) (a2 : ℚ) (c : Ctx) (i : Nat) (m : Msg) : (sys a1 a2 c).node (34, i) m = .obj (beh c (.var (.float a2)) 34 i m) := rfl
theorem o34_0 (a1 : ℚ) (a2 : ℚ) (c : Ctx) : (sys a1 a2 c).out 34 0 = [(35, 0)] := rfl
theorem n35 (a1 : ℚ) (a2 : ℚ) (c : Ctx) (i : Nat) (m : Msg) : (sys a1 a2 c).node (35, i) m = .fwd false [((44, 0), m)] := rfl
theorem n39 (a1 : ℚ) (a2 : ℚ) (c : Ctx) (i : Nat) (m : Msg) : (sys a1 a2 c).node (39, i) m = .fwd false [((30, 0), m)] := rfl
theorem n40 (a1 : ℚ) (a2 : ℚ) (c : Ctx) (i : Nat) (m : Msg) : (sys a1 a2 c).node (40, i) m = .obj (beh c (.ite a2) 40 i m) := rfl
theorem o40_0 (a1 : ℚ) (a2 : ℚ) (c : Ctx) : (sys a1 a2 c).out 40 0 = [(43, 0)] := rfl
theorem o40_1 (a1 : ℚ) (a2 : ℚ) (c : Ctx) : (sys a1 a2 c).out 40 1 = [(42, 0)] := rfl
theorem n41 (a1 : ℚ) (a2 : ℚ) (c : Ctx) (i : Nat) (m : Msg) : (sys a1 a2 c).node (41, i) m = .obj (beh c (.bink .gt 0) 41 i m) := rfl
theorem o41_0 (a1 : ℚ) (a2 : ℚ) (c : Ctx) : (sys a1 a2 c).out 41 0 = [(40, 1)] := rfl
theorem n42 (a1 : ℚ) (a2 : ℚ) (c : Ctx) (i : Nat) (m : Msg) : (sys a1 a2 c).node (42, i) m = .obj (beh c (.un .floor) 42 i m) := rfl
theorem o42_0 (a1 : ℚ) (a2 : ℚ) (c : Ctx) : (sys a1 a2 c).out 42 0 = [(39, 0)] := rfl
theorem n43 (a1 : ℚ) (a2 : ℚ) (c : Ctx) (i : Nat) (m : Msg) : (sys a1 a2 c).node (43, i) m = .obj (beh c (.un .ceil) 43 i m) := rfl
theorem o43_0 (a1 : ℚ) (a2 : ℚ) (c : Ctx) : (sys a1 a2 c).out 43 0 = [(39, 0)] := rfl
theorem n44 (a1 : ℚ) (a2 : ℚ) (c : Ctx) (i : Nat) (m : Msg) : (sys a1 a2 c).node (44, i) m = .fwd false ([((41, 0), m)] ++ ([((40, 0), m)] ++ ([]))) := rfl
theorem n45_0 (a1 : ℚ) (a2 : ℚ) (c : Ctx) (m : Msg) : (sys a1 a2 c).node (45, 0) m = .fwd false [((47, 0), m), ((49, 0), m), ((51, 0), m)] := rfl
theorem n47 (a1 : ℚ) (a2 : ℚ) (c : Ctx) (i : Nat) (m : Msg) : (sys a1 a2 c).node (47, i) m = .obj (beh c (.slice 2 1) 47 i m) := rfl
theorem o47_0 (a1 : ℚ) (a2 : ℚ) (c : Ctx) : (sys a1 a2 c).out 47 0 = [(48, 0)] := rfl
theorem o47_1 (a1 : ℚ) (a2 : ℚ) (c : Ctx) : (sys a1 a2 c).out 47 1 = [] := rfl
theorem n48 (a1 : ℚ) (a2 : ℚ) (c : Ctx) (i : Nat) (m : Msg) : (sys a1 a2 c).node (48, i) m = .fwd false [((53, 0), m)] := rfl
theorem n49 (a1 : ℚ) (a2 : ℚ) (c : Ctx) (i : Nat) (m : Msg) : (sys a1 a2 c).node (49, i) m = .obj (beh c (.slice 1 1) 49 i m) := rfl
theorem o49_0 (a1 : ℚ) (a2 : ℚ) (c : Ctx) : (sys a1 a2 c).out 49 0 = [(50, 0)] := rfl
theorem o49_1 (a1 : ℚ) (a2 : ℚ) (c : Ctx) : (sys a1 a2 c).out 49 1 = [] := rfl
theorem n50 (a1 : ℚ) (a2 : ℚ) (c : Ctx) (i : Nat) (m : Msg) : (sys a1 a2 c).node (50, i) m = .fwd false [((63, 0), m), ((55, 0), m)] := rfl
theorem n51 (a1 : ℚ) (a2 : ℚ) (c : Ctx) (i : Nat) (m : Msg) : (sys a1 a2 c).node (51, i) m = .obj (beh c (.slice 0 1) 51 i m) := rfl
theorem o51_0 (a1 : ℚ) (a2 : ℚ) (c : Ctx) : (sys a1 a2 c).out 51 0 = [(52, 0)] := rfl
theorem o51_1 (a1 : ℚ) (a2 : ℚ) (c : Ctx) : (sys a1 a2 c).out 51 1 = [] := rfl
theorem n52 (a1 : ℚ) (a2 : ℚ) (c : Ctx) (i : Nat) (m : Msg) : (sys a1 a2 c).node (52, i) m = .fwd false [((58, 0), m), ((68, 0), m)] := rfl
theorem n53 (a1 : ℚ) (a2 : ℚ) (c : Ctx) (i : Nat) (m : Msg) : (sys a1 a2 c).node (53, i) m = .obj (beh c (.bink .add 1) 53 i m) := rfl
theorem o53_0 (a1 : ℚ) (a2 : ℚ) (c : Ctx) : (sys a1 a2 c).out 53 0 = [(54, 0)] := rfl
theorem n54 (a1 : ℚ) (a2 : ℚ) (c : Ctx) (i : Nat) (m : Msg) : (sys a1 a2 c).node (54, i) m = .obj (beh c (.bink .max 1) 54 i m) := rfl
theorem o54_0 (a1 : ℚ) (a2 : ℚ) (c : Ctx) : (sys a1 a2 c).out 54 0 = [(101, 0)] := rfl
theorem n55 (a1 : ℚ) (a2 : ℚ) (c : Ctx) (i : Nat) (m : Msg) : (sys a1 a2 c).node (55, i) m = .obj (beh c (.bin .eq 0) 55 i m) := rfl
theorem o55_0 (a1 : ℚ) (a2 : ℚ) (c : Ctx) : (sys a1 a2 c).out 55 0 = [(117, 0)] := rfl
theorem n56 (a1 : ℚ) (a2 : ℚ) (c : Ctx) (i : Nat) (m : Msg) : (sys a1 a2 c).node (56, i) m = .fwd false (castTo .float [(55, 1)] m ++ (castTo .float [(57, 0)] m ++ ([]))) := by rcases m with _ | ⟨_ | _ | _, _⟩ <;> rfl
theorem n57 (a1 : ℚ) (a2 : ℚ) (c : Ctx) (i : Nat) (m : Msg) : (sys a1 a2 c).node (57, i) m = .obj (beh c (.bink .eq 0) 57 i m) := rfl
theorem o57_0 (a1 : ℚ) (a2 : ℚ) (c : Ctx) : (sys a1 a2 c).out 57 0 = [(118, 0)] := rfl
theorem n58_0 (a1 : ℚ) (a2 : ℚ) (c : Ctx) (m : Msg) : (sys a1 a2 c).node (58, 0) m = .fwd false [((62, 0), m)] := rfl
theorem n58_1 (a1 : ℚ) (a2 : ℚ) (c : Ctx) (m : Msg) : (sys a1 a2 c).node (58, 1) m = .fwd false [((62, 1), m)] := rfl
theorem n61 (a1 : ℚ) (a2 : ℚ) (c : Ctx) (i : Nat) (m : Msg) : (sys a1 a2 c).node (61, i) m = .fwd false [((1, 0), m)] := rfl
theorem n62 (a1 : ℚ) (a2 : ℚ) (c : Ctx) (i : Nat) (m : Msg) : (sys a1 a2 c).node (62, i) m = .obj (beh c (.ite 0) 62 i m) := rfl
theorem o62_0 (a1 : ℚ) (a2 : ℚ) (c : Ctx) : (sys a1 a2 c).out 62 0 = [] := rfl
theorem o62_1 (a1 : ℚ) (a2 : ℚ) (c : Ctx) : (sys a1 a2 c).out 62 1 = [(61, 0)] := rfl
theorem n63_0 (a1 : ℚ) (a2 : ℚ) (c : Ctx) (m : Msg) : (sys a1 a2 c).node (63, 0) m = .fwd false [((67, 0), m)] := rfl
theorem n63_1 (a1 : ℚ) (a2 : ℚ) (c : Ctx) (m : Msg) : (sys a1 a2 c).node (63, 1) m = .fwd false [((67, 1), m)] := rfl
theorem n66 (a1 : ℚ) (a2 : ℚ) (c : Ctx) (i : Nat) (m : Msg) : (sys a1 a2 c).node (66, i) m = .fwd false [((2, 0), m)] := rfl
theorem n67 (a1 : ℚ) (a2 : ℚ) (c : Ctx) (i : Nat) (m : Msg) : (sys a1 a2 c).node (67, i) m = .obj (beh c (.ite 0) 67 i m) := rfl
theorem o67_0 (a1 : ℚ) (a2 : ℚ) (c : Ctx) : (sys a1 a2 c).out 67 0 = [] := rfl
theorem o67_1 (a1 : ℚ) (a2 : ℚ) (c : Ctx) : (sys a1 a2 c).out 67 1 = [(66, 0)] := rfl
theorem n68_0 (a1 : ℚ) (a2 : ℚ) (c : Ctx) (m : Msg) : (sys a1 a2 c).node (68, 0) m = .fwd false [((72, 0), m)] := rfl
theorem n68_1 (a1 : ℚ) (a2 : ℚ) (c : Ctx) (m : Msg) : (sys a1 a2 c).node (68, 1) m = .fwd false [((72, 1), m)] := rfl
theorem n71 (a1 : ℚ) (a2 : ℚ) (c : Ctx) (i : Nat) (m : Msg) : (sys a1 a2 c).node (71, i) m = .fwd false [((78, 0), m)] := rfl
theorem n72 (a1 : ℚ) (a2 : ℚ) (c : Ctx) (i : Nat) (m : Msg) : (sys a1 a2 c).node (72, i) m = .obj (beh c (.ite 0) 72 i m) := rfl
theorem o72_0 (a1 : ℚ) (a2 : ℚ) (c : Ctx) : (sys a1 a2 c).out 72 0 = [] := rfl
theorem o72_1 (a1 : ℚ) (a2 : ℚ) (c : Ctx) : (sys a1 a2 c).out 72 1 = [(71, 0)] := rfl
theorem n73_0 (a1 : ℚ) (a2 : ℚ) (c : Ctx) (m : Msg) : (sys a1 a2 c).node (73, 0) m = .fwd false [((77, 0), m)] := rfl
theorem n73_1 (a1 : ℚ) (a2 : ℚ) (c : Ctx) (m : Msg) : (sys a1 a2 c).node (73, 1) m = .fwd false [((77, 1), m)] := rfl
theorem n76 (a1 : ℚ) (a2 : ℚ) (c : Ctx) (i : Nat) (m : Msg) : (sys a1 a2 c).node (76, i) m = .fwd false [((89, 0), m)] := rfl
theorem n77 (a1 : ℚ) (a2 : ℚ) (c : Ctx) (i : Nat) (m : Msg) : (sys a1 a2 c).node (77, i) m = .obj (beh c (.ite 1) 77 i m) := rfl
theorem o77_0 (a1 : ℚ) (a2 : ℚ) (c : Ctx) : (sys a1 a2 c).out 77 0 = [] := rfl
theorem o77_1 (a1 : ℚ) (a2 : ℚ) (c : Ctx) : (sys a1 a2 c).out 77 1 = [(76, 0)] := rfl
theorem n78_0 (a1 : ℚ) (a2 : ℚ) (c : Ctx) (m : Msg) : (sys a1 a2 c).node (78, 0) m = .fwd false [((82, 0), m)] := rfl
theorem n78_1 (a1 : ℚ) (a2 : ℚ) (c : Ctx) (m : Msg) : (sys a1 a2 c).node (78, 1) m = .fwd false [((82, 1), m)] := rfl
theorem n81 (a1 : ℚ) (a2 : ℚ) (c : Ctx) (i : Nat) (m : Msg) : (sys a1 a2 c).node (81, i) m = .fwd false [((84, 0), m)] := rfl
theorem n82 (a1 : ℚ) (a2 : ℚ) (c : Ctx) (i : Nat) (m : Msg) : (sys a1 a2 c).node (82, i) m = .obj (beh c (.ite 1) 82 i m) := rfl
theorem o82_0 (a1 : ℚ) (a2 : ℚ) (c : Ctx) : (sys a1 a2 c).out 82 0 = [] := rfl
theorem o82_1 (a1 : ℚ) (a2 : ℚ) (c : Ctx) : (sys a1 a2 c).out 82 1 = [(81, 0)] := rfl
theorem n83 (a1 : ℚ) (a2 : ℚ) (c : Ctx) (i : Nat) (m : Msg) : (sys a1 a2 c).node (83, i) m = .obj (beh c (.bink .eq 0) 83 i m) := rfl
theorem o83_0 (a1 : ℚ) (a2 : ℚ) (c : Ctx) : (sys a1 a2 c).out 83 0 = [(78, 1)] := rfl
theorem n84_0 (a1 : ℚ) (a2 : ℚ) (c : Ctx) (m : Msg) : (sys a1 a2 c).node (84, 0) m = .fwd false [((88, 0), m)] := rfl
theorem n84_1 (a1 : ℚ) (a2 : ℚ) (c : Ctx) (m : Msg) : (sys a1 a2 c).node (84, 1) m = .fwd false [((88, 1), m)] := rfl
theorem n87 (a1 : ℚ) (a2 : ℚ) (c : Ctx) (i : Nat) (m : Msg) : (sys a1 a2 c).node (87, i) m = .fwd false [((1, 0), m)] := rfl
theorem n88 (a1 : ℚ) (a2 : ℚ) (c : Ctx) (i : Nat) (m : Msg) : (sys a1 a2 c).node (88, i) m = .obj (beh c (.ite 1) 88 i m) := rfl
theorem o88_0 (a1 : ℚ) (a2 : ℚ) (c : Ctx) : (sys a1 a2 c).out 88 0 = [] := rfl
theorem o88_1 (a1 : ℚ) (a2 : ℚ) (c : Ctx) : (sys a1 a2 c).out 88 1 = [(87, 0)] := rfl
theorem n89_0 (a1 : ℚ) (a2 : ℚ) (c : Ctx) (m : Msg) : (sys a1 a2 c).node (89, 0) m = .fwd false [((93, 0), m)] := rfl
theorem n89_1 (a1 : ℚ) (a2 : ℚ) (c : Ctx) (m : Msg) : (sys a1 a2 c).node (89, 1) m = .fwd false [((93, 1), m)] := rfl
theorem n92 (a1 : ℚ) (a2 : ℚ) (c : Ctx) (i : Nat) (m : Msg) : (sys a1 a2 c).node (92, i) m = .fwd false [((2, 0), m)] := rfl
theorem n93 (a1 : ℚ) (a2 : ℚ) (c : Ctx) (i : Nat) (m : Msg) : (sys a1 a2 c).node (93, i) m = .obj (beh c (.ite 1) 93 i m) := rfl
theorem o93_0 (a1 : ℚ) (a2 : ℚ) (c : Ctx) : (sys a1 a2 c).out 93 0 = [] := rfl
theorem o93_1 (a1 : ℚ) (a2 : ℚ) (c : Ctx) : (sys a1 a2 c).out 93 1 = [(92, 0)] := rfl
theorem n94_0 (a1 : ℚ) (a2 : ℚ) (c : Ctx) (m : Msg) : (sys a1 a2 c).node (94, 0) m = .fwd false [((98, 0), m)] := rfl
theorem n94_1 (a1 : ℚ) (a2 : ℚ) (c : Ctx) (m : Msg) : (sys a1 a2 c).node (94, 1) m = .fwd false [((98, 1), m)] := rfl
theorem n97 (a1 : ℚ) (a2 : ℚ) (c : Ctx) (i : Nat) (m : Msg) : (sys a1 a2 c).node (97, i) m = .fwd false [((104, 0), m)] := rfl
theorem n98 (a1 : ℚ) (a2 : ℚ) (c : Ctx) (i : Nat) (m : Msg) : (sys a1 a2 c).node (98, i) m = .obj (beh c (.ite 0) 98 i m) := rfl
theorem o98_0 (a1 : ℚ) (a2 : ℚ) (c : Ctx) : (sys a1 a2 c).out 98 0 = [] := rfl
theorem o98_1 (a1 : ℚ) (a2 : ℚ) (c : Ctx) : (sys a1 a2 c).out 98 1 = [(97, 0)] := rfl
theorem n99 (a1 : ℚ) (a2 : ℚ) (c : Ctx) (i : Nat) (m : Msg) : (sys a1 a2 c).node (99, i) m = .fwd false (castTo .float [(102, 0)] m ++ (castTo .float [(104, 1)] m ++ ([]))) := by rcases m with _ | ⟨_ | _ | _, _⟩ <;> rfl
theorem n100 (a1 : ℚ) (a2 : ℚ) (c : Ctx) (i : Nat) (m : Msg) : (sys a1 a2 c).node (100, i) m = .obj (beh c (.bink .neq 0) 100 i m) := rfl
theorem o100_0 (a1 : ℚ) (a2 : ℚ) (c : Ctx) : (sys a1 a2 c).out 100 0 = [(94, 1)] := rfl
theorem n101 (a1 : ℚ) (a2 : ℚ) (c : Ctx) (i : Nat) (m : Msg) : (sys a1 a2 c).node (101, i) m = .fwd false (castTo .float [(94, 0)] m ++ (castTo .float [(105, 0)] m ++ ([]))) := by rcases m with _ | ⟨_ | _ | _, _⟩ <;> rfl
theorem n102 (a1 : ℚ) (a2 : ℚ) (c : Ctx) (i : Nat) (m : Msg) : (sys a1 a2 c).node (102, i) m = .fwd false ([((100, 0), m)] ++ ([((103, 0), m)] ++ ([]))) := rfl
theorem n103 (a1 : ℚ) (a2 : ℚ) (c : Ctx) (i : Nat) (m : Msg) : (sys a1 a2 c).node (103, i) m = .obj (beh c (.bink .eq 0) 103 i m) := rfl
theorem o103_0 (a1 : ℚ) (a2 : ℚ) (c : Ctx) : (sys a1 a2 c).out 103 0 = [(89, 1)] := rfl
theorem n104 (a1 : ℚ) (a2 : ℚ) (c : Ctx) (i : Nat) (m : Msg) : (sys a1 a2 c).node (104, i) m = .obj (beh c (.bin .eq 0) 104 i m) := rfl
theorem o104_0 (a1 : ℚ) (a2 : ℚ) (c : Ctx) : (sys a1 a2 c).out 104 0 = [(84, 1)] := rfl
theorem n105 (a1 : ℚ) (a2 : ℚ) (c : Ctx) (i : Nat) (m : Msg) : (sys a1 a2 c).node (105, i) m = .fwd false (castTo .float [(106, 0)] m ++ (castTo .float [(111, 1)] m ++ ([]))) := by rcases m with _ | ⟨_ | _ | _, _⟩ <;> rfl
theorem n106_0 (a1 : ℚ) (a2 : ℚ) (c : Ctx) (m : Msg) : (sys a1 a2 c).node (106, 0) m = .fwd false [((110, 0), m)] := rfl
theorem n106_1 (a1 : ℚ) (a2 : ℚ) (c : Ctx) (m : Msg) : (sys a1 a2 c).node (106, 1) m = .fwd false [((110, 1), m)] := rfl
theorem n109 (a1 : ℚ) (a2 : ℚ) (c : Ctx) (i : Nat) (m : Msg) : (sys a1 a2 c).node (109, i) m = .fwd false [((3, 0), m)] := rfl
theorem n110 (a1 : ℚ) (a2 : ℚ) (c : Ctx) (i : Nat) (m : Msg) : (sys a1 a2 c).node (110, i) m = .obj (beh c (.ite 0) 110 i m) := rfl
theorem o110_0 (a1 : ℚ) (a2 : ℚ) (c : Ctx) : (sys a1 a2 c).out 110 0 = [] := rfl
theorem o110_1 (a1 : ℚ) (a2 : ℚ) (c : Ctx) : (sys a1 a2 c).out 110 1 = [(109, 0)] := rfl
theorem n111_0 (a1 : ℚ) (a2 : ℚ) (c : Ctx) (m : Msg) : (sys a1 a2 c).node (111, 0) m = .fwd false [((112, 0), m)] := rfl
theorem n111_1 (a1 : ℚ) (a2 : ℚ) (c : Ctx) (m : Msg) : (sys a1 a2 c).node (111, 1) m = .fwd false [((112, 1), m)] := rfl
theorem n112 (a1 : ℚ) (a2 : ℚ) (c : Ctx) (i : Nat) (m : Msg) : (sys a1 a2 c).node (112, i) m = .obj (beh c (.var (.float 0)) 112 i m) := rfl
theorem o112_0 (a1 : ℚ) (a2 : ℚ) (c : Ctx) : (sys a1 a2 c).out 112 0 = [(113, 0)] := rfl
theorem n113 (a1 : ℚ) (a2 : ℚ) (c : Ctx) (i : Nat) (m : Msg) : (sys a1 a2 c).node (113, i) m = .fwd false [((73, 0), m)] := rfl
theorem n116 (a1 : ℚ) (a2 : ℚ) (c : Ctx) (i : Nat) (m : Msg) : (sys a1 a2 c).node (116, i) m = .fwd false ([((106, 1), m)] ++ ([])) := rfl
theorem n117 (a1 : ℚ) (a2 : ℚ) (c : Ctx) (i : Nat) (m : Msg) : (sys a1 a2 c).node (117, i) m = .fwd false (castTo .float [(73, 1)] m ++ (castTo .bang [(111, 0)] m ++ (castTo .float [(68, 1)] m ++ ([])))) := by rcases m with _ | ⟨_ | _ | _, _⟩ <;> rfl
theorem n118 (a1 : ℚ) (a2 : ℚ) (c : Ctx) (i : Nat) (m : Msg) : (sys a1 a2 c).node (118, i) m = .fwd false (castTo .float [(116, 0)] m ++ (castTo .float [(63, 1)] m ++ (castTo .float [(58, 1)] m ++ (castTo .float [(83, 0)] m ++ ([]))))) := by rcases m with _ | ⟨_ | _ | _, _⟩ <;> rfl
theorem n119 (a1 : ℚ) (a2 : ℚ) (c : Ctx) (i : Nat) (m : Msg) : (sys a1 a2 c).node (119, i) m = .obj (beh c (.probe 0) 119 i m) := rfl
theorem n120 (a1 : ℚ) (a2 : ℚ) (c : Ctx) (i : Nat) (m : Msg) : (sys a1 a2 c).node (120, i) m = .obj (beh c (.probe 1) 120 i m) := rfl
theorem n121 (a1 : ℚ) (a2 : ℚ) (c : Ctx) (i : Nat) (m : Msg) : (sys a1 a2 c).node (121, i) m = .obj (beh c (.probe 2) 121 i m) := rfl
theorem n122 (a1 : ℚ) (a2 : ℚ) (c : Ctx) (i : Nat) (m : Msg) : (sys a1 a2 c).node (122, i) m = .obj (beh c (.none) 122 i m) := rfl
theorem o122_0 (a1 : ℚ) (a2 : ℚ) (c : Ctx) : (sys a1 a2 c).out 122 0 = [(123, 0)] := rfl
theorem n123 (a1 : ℚ) (a2 : ℚ) (c : Ctx) (i : Nat) (m : Msg) : (sys a1 a2 c).node (123, i) m = .fwd true [((45, 0), m)] := rfl

attribute [lib_ctlin] n1 n2 n3 n6 n8 n9_0 n9_1 n12 n13_0 n13_1 n15_0 n15_1 n16 o16_0 n17 n21 n22 o22_0 o22_1 n23 o23_0 n24 o24_0 n25 o25_0 n26 n27_0 n27_1 n30 n31_0 n31_1 n33_0 n33_1 n34 o34_0 n35 n39 n40 o40_0 o40_1 n41 o41_0 n42 o42_0 n43 o43_0 n44 n45_0 n47 o47_0 o47_1 n48 n49 o49_0 o49_1 n50 n51 o51_0 o51_1 n52 n53 o53_0 n54 o54_0 n55 o55_0 n56 n57 o57_0 n58_0 n58_1 n61 n62 o62_0 o62_1 n63_0 n63_1 n66 n67 o67_0 o67_1 n68_0 n68_1 n71 n72 o72_0 o72_1 n73_0 n73_1 n76 n77 o77_0 o77_1 n78_0 n78_1 n81 n82 o82_0 o82_1 n83 o83_0 n84_0 n84_1 n87 n88 o88_0 o88_1 n89_0 n89_1 n92 n93 o93_0 o93_1 n94_0 n94_1 n97 n98 o98_0 o98_1 n99 n100 o100_0 n101 n102 n103 o103_0 n104 o104_0 n105 n106_0 n106_1 n109 n110 o110_0 o110_1 n111_0 n111_1 n112 o112_0 n113 n116 n117 n118 n119 n120 n121 n122 o122_0 n123

end Verif.Lib.Ctlin
