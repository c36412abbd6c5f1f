import Verif.LibSim
/-!
The abstraction `[line]`: transcription of hvcc/interpreters/pd2hv/libs/pd/line.pd and of the library files it uses, made by
tools/pdlib.py.  Object `0` is the abstraction itself, its outlets are connected to `.probe`s.
-/
set_option linter.unusedVariables false
set_option linter.style.longLine false
set_option maxRecDepth 100000
namespace Verif.Lib.Line
open Verif.Control (Dest Kind Cast Patch)

/-- the objects of hvcc/interpreters/pd2hv/libs/pd/line.pd: kind, connections of each outlet, class -/
def nodes (a1 : ℚ) (a2 : ℚ) : List Node :=
  [⟨.graph [2, 78, 79], [[(133, 0)]], .none⟩,  -- 0: line
   ⟨.outlet 0 0, [], .none⟩,  -- 1: line, object 0: outlet
   ⟨.inlet, [[(68, 0)]], .none⟩,  -- 2: line, object 1: inlet target
   ⟨.graph [4], [[(67, 0)]], .none⟩,  -- 3: line, object 2: samplerate~
   ⟨.inlet, [[(6, 0)]], .none⟩,  -- 4: samplerate~, object 0: inlet
   ⟨.outlet 3 0, [], .none⟩,  -- 5: samplerate~, object 1: outlet
   ⟨.obj, [[(7, 0)]], .msg [.lit (.sym "samplerate")]⟩,  -- 6: samplerate~, object 2: samplerate
   ⟨.obj, [[(5, 0)]], .system⟩,  -- 7: samplerate~, object 3: pd @hv_obj system
   ⟨.obj, [[(42, 1)]], .bink .div 1000⟩,  -- 8: line, object 3: / 1000
   ⟨.obj, [[(8, 0)]], .bin .mul 0⟩,  -- 9: line, object 4: *
   ⟨.graph [11, 12], [[(42, 0)]], .none⟩,  -- 10: line, object 5: metro 20
   ⟨.inlet, [[(14, 0)]], .none⟩,  -- 11: metro, object 0: inlet
   ⟨.inlet, [[(31, 0)]], .none⟩,  -- 12: metro, object 1: inlet
   ⟨.outlet 10 0, [], .none⟩,  -- 13: metro, object 2: outlet
   ⟨.obj, [[(15, 0)], [(15, 0)], [(18, 0)]], .switch [(.float 0), (.sym "stop")]⟩,  -- 14: metro, object 4: pd @hv_obj __switchcase 0 stop
   ⟨.obj, [[(17, 0)]], .msg [.lit (.sym "clear")]⟩,  -- 15: metro, object 5: clear
   ⟨.seq [none, none], [[(13, 0)], [(17, 0)]], .none⟩,  -- 16: metro, object 6: t a a
   ⟨.obj, [[(16, 0)]], .delay 0⟩,  -- 17: metro, object 7: pd @hv_obj __delay
   ⟨.graph [19], [[(22, 0)]], .none⟩,  -- 18: metro, object 8: bang
   ⟨.inlet, [[(20, 0)]], .none⟩,  -- 19: bang, object 0: inlet -->
   ⟨.cast .bang, [[(21, 0)]], .none⟩,  -- 20: bang, object 1: pd @hv_obj __cast_b
   ⟨.outlet 18 0, [], .none⟩,  -- 21: bang, object 2: outlet -->
   ⟨.seq [none, none], [[(16, 0)], [(15, 0)]], .none⟩,  -- 22: metro, object 9: t a a
   ⟨.obj, [[(17, 2)]], .bink .max 1⟩,  -- 23: metro, object 11: max 1
   ⟨.graph [25], [[(29, 0)]], .none⟩,  -- 24: metro, object 12: samplerate~
   ⟨.inlet, [[(27, 0)]], .none⟩,  -- 25: samplerate~, object 0: inlet
   ⟨.outlet 24 0, [], .none⟩,  -- 26: samplerate~, object 1: outlet
   ⟨.obj, [[(28, 0)]], .msg [.lit (.sym "samplerate")]⟩,  -- 27: samplerate~, object 2: samplerate
   ⟨.obj, [[(26, 0)]], .system⟩,  -- 28: samplerate~, object 3: pd @hv_obj system
   ⟨.obj, [[(30, 1)]], .bink .div 1000⟩,  -- 29: metro, object 13: / 1000
   ⟨.obj, [[(23, 0)]], .bin .mul 0⟩,  -- 30: metro, object 14: *
   ⟨.graph [34, 35], [[(30, 0)]], .none⟩,  -- 31: metro, object 15: f \$1
   ⟨.obj, [[(33, 0)]], .var (.float 20)⟩,  -- 32: f, object 1: pd @hv_obj __var \$1
   ⟨.outlet 31 0, [], .none⟩,  -- 33: f, object 2: outlet
   ⟨.inlet, [[(32, 0)]], .none⟩,  -- 34: f, object 3: inlet -->
   ⟨.inlet, [[(32, 1)]], .none⟩,  -- 35: f, object 4: inlet -->
   ⟨.seq [none, none], [[(31, 0)], [(24, 0)]], .none⟩,  -- 36: metro, object 16: t a a
   ⟨.graph [], [[(36, 0)]], .none⟩,  -- 37: metro, object 17: loadbang
   ⟨.recv, [[(39, 0)]], .none⟩,  -- 38: loadbang, object 0: r __hv_init \$1
   ⟨.outlet 37 0, [], .none⟩,  -- 39: loadbang, object 1: outlet
   ⟨.obj, [[(41, 0)]], .bin .mul 0⟩,  -- 40: line, object 6: *
   ⟨.obj, [[(47, 1)]], .bink .div 1000⟩,  -- 41: line, object 7: / 1000
   ⟨.graph [45, 46], [[(47, 0), (59, 0)]], .none⟩,  -- 42: line, object 8: f
   ⟨.obj, [[(44, 0)]], .var (.float 0)⟩,  -- 43: f, object 1: pd @hv_obj __var \$1
   ⟨.outlet 42 0, [], .none⟩,  -- 44: f, object 2: outlet
   ⟨.inlet, [[(43, 0)]], .none⟩,  -- 45: f, object 3: inlet -->
   ⟨.inlet, [[(43, 1)]], .none⟩,  -- 46: f, object 4: inlet -->
   ⟨.obj, [[(42, 1)]], .bin .sub 0⟩,  -- 47: line, object 9: -
   ⟨.obj, [[(10, 0)]], .msg [.lit (.float 1)]⟩,  -- 48: line, object 10: 1
   ⟨.graph [50, 51], [[(110, 0)], [(65, 0)], []], .none⟩,  -- 49: line, object 11: sel 0 1
   ⟨.inlet, [[(52, 0)]], .none⟩,  -- 50: line, object 11: sel 0 1
   ⟨.inlet, [[]], .none⟩,  -- 51: line, object 11: sel 0 1
   ⟨.obj, [[(54, 0)], [(56, 0)], [(53, 0)]], .switch [(.float 0), (.float 1)]⟩,  -- 52: line, object 11: sel 0 1
   ⟨.outlet 49 2, [], .none⟩,  -- 53: line, object 11: sel 0 1
   ⟨.cast .bang, [[(55, 0)]], .none⟩,  -- 54: line, object 11: sel 0 1
   ⟨.outlet 49 0, [], .none⟩,  -- 55: line, object 11: sel 0 1
   ⟨.cast .bang, [[(57, 0)]], .none⟩,  -- 56: line, object 11: sel 0 1
   ⟨.outlet 49 1, [], .none⟩,  -- 57: line, object 11: sel 0 1
   ⟨.obj, [[(117, 0)]], .msg [.lit (.float 0)]⟩,  -- 58: line, object 12: 0
   ⟨.obj, [[(49, 0)]], .bink .le 0⟩,  -- 59: line, object 13: <= 0
   ⟨.obj, [[(110, 1)]], .bin .add 0⟩,  -- 60: line, object 14: +
   ⟨.obj, [[(62, 1)]], .bin .div 20⟩,  -- 61: line, object 15: / 20
   ⟨.obj, [[(118, 0)]], .bin .div 0⟩,  -- 62: line, object 16: /
   ⟨.seq [some .float, some .float], [[(61, 0)], [(9, 0)]], .none⟩,  -- 63: line, object 17: t f f
   ⟨.seq [some .float, some .float], [[(116, 0)], [(105, 1)]], .none⟩,  -- 64: line, object 18: t f f
   ⟨.seq [some .bang, some .bang], [[(105, 0)], [(58, 0)]], .none⟩,  -- 65: line, object 19: t b b
   ⟨.obj, [[(100, 0)]], .bin .add 0⟩,  -- 66: line, object 22: +
   ⟨.seq [none, none], [[(9, 1)], [(40, 1)]], .none⟩,  -- 67: line, object 24: t a a
   ⟨.graph [69, 70], [[(77, 0)], [(115, 0)], [(129, 0)]], .none⟩,  -- 68: line, object 25: route stop set
   ⟨.inlet, [[(71, 0)]], .none⟩,  -- 69: line, object 25: route stop set
   ⟨.inlet, [[]], .none⟩,  -- 70: line, object 25: route stop set
   ⟨.obj, [[(73, 0)], [(75, 0)], [(72, 0)]], .switch [(.sym "stop"), (.sym "set")]⟩,  -- 71: line, object 25: route stop set
   ⟨.outlet 68 2, [], .none⟩,  -- 72: line, object 25: route stop set
   ⟨.obj, [[(74, 0)], [(74, 0)]], .slice 1 0⟩,  -- 73: line, object 25: route stop set
   ⟨.outlet 68 0, [], .none⟩,  -- 74: line, object 25: route stop set
   ⟨.obj, [[(76, 0)], [(76, 0)]], .slice 1 0⟩,  -- 75: line, object 25: route stop set
   ⟨.outlet 68 1, [], .none⟩,  -- 76: line, object 25: route stop set
   ⟨.obj, [[(10, 0)]], .msg [.lit (.float 0)]⟩,  -- 77: line, object 26: 0
   ⟨.inlet, [[(80, 1)]], .none⟩,  -- 78: line, object 27: inlet ramp
   ⟨.inlet, [[(91, 0)]], .none⟩,  -- 79: line, object 28: inlet grain
   ⟨.graph [83, 84], [[(63, 0)]], .none⟩,  -- 80: line, object 31: f 0
   ⟨.obj, [[(82, 0)]], .var (.float 0)⟩,  -- 81: f, object 1: pd @hv_obj __var \$1
   ⟨.outlet 80 0, [], .none⟩,  -- 82: f, object 2: outlet
   ⟨.inlet, [[(81, 0)]], .none⟩,  -- 83: f, object 3: inlet -->
   ⟨.inlet, [[(81, 1)]], .none⟩,  -- 84: f, object 4: inlet -->
   ⟨.obj, [[(80, 1)]], .msg [.lit (.float 0)]⟩,  -- 85: line, object 32: 0
   ⟨.graph [89, 90], [[(92, 0)]], .none⟩,  -- 86: line, object 33: f \$2
   ⟨.obj, [[(88, 0)]], .var (.float a2)⟩,  -- 87: f, object 1: pd @hv_obj __var \$1
   ⟨.outlet 86 0, [], .none⟩,  -- 88: f, object 2: outlet
   ⟨.inlet, [[(87, 0)]], .none⟩,  -- 89: f, object 3: inlet -->
   ⟨.inlet, [[(87, 1)]], .none⟩,  -- 90: f, object 4: inlet -->
   ⟨.obj, [[(86, 0)]], .bink .max 0⟩,  -- 91: line, object 34: max 0
   ⟨.graph [93, 94], [[(99, 0)], [(120, 0)]], .none⟩,  -- 92: line, object 35: sel 0
   ⟨.inlet, [[(95, 0)]], .none⟩,  -- 93: line, object 35: sel 0
   ⟨.inlet, [[]], .none⟩,  -- 94: line, object 35: sel 0
   ⟨.obj, [[(97, 0)], [(96, 0)]], .switch [(.float 0)]⟩,  -- 95: line, object 35: sel 0
   ⟨.outlet 92 1, [], .none⟩,  -- 96: line, object 35: sel 0
   ⟨.cast .bang, [[(98, 0)]], .none⟩,  -- 97: line, object 35: sel 0
   ⟨.outlet 92 0, [], .none⟩,  -- 98: line, object 35: sel 0
   ⟨.obj, [[(120, 0)]], .msg [.lit (.float 20)]⟩,  -- 99: line, object 36: 20
   ⟨.graph [103, 104], [[(116, 1)]], .none⟩,  -- 100: line, object 37: f \$1
   ⟨.obj, [[(102, 0)]], .var (.float a1)⟩,  -- 101: f, object 1: pd @hv_obj __var \$1
   ⟨.outlet 100 0, [], .none⟩,  -- 102: f, object 2: outlet
   ⟨.inlet, [[(101, 0)]], .none⟩,  -- 103: f, object 3: inlet -->
   ⟨.inlet, [[(101, 1)]], .none⟩,  -- 104: f, object 4: inlet -->
   ⟨.graph [108, 109], [[(110, 0)]], .none⟩,  -- 105: line, object 38: f
   ⟨.obj, [[(107, 0)]], .var (.float 0)⟩,  -- 106: f, object 1: pd @hv_obj __var \$1
   ⟨.outlet 105 0, [], .none⟩,  -- 107: f, object 2: outlet
   ⟨.inlet, [[(106, 0)]], .none⟩,  -- 108: f, object 3: inlet -->
   ⟨.inlet, [[(106, 1)]], .none⟩,  -- 109: f, object 4: inlet -->
   ⟨.graph [113, 114], [[(60, 0), (121, 0)]], .none⟩,  -- 110: line, object 39: f \$1
   ⟨.obj, [[(112, 0)]], .var (.float a1)⟩,  -- 111: f, object 1: pd @hv_obj __var \$1
   ⟨.outlet 110 0, [], .none⟩,  -- 112: f, object 2: outlet
   ⟨.inlet, [[(111, 0)]], .none⟩,  -- 113: f, object 3: inlet -->
   ⟨.inlet, [[(111, 1)]], .none⟩,  -- 114: f, object 4: inlet -->
   ⟨.seq [some .float, some .bang], [[(119, 0)], [(77, 0)]], .none⟩,  -- 115: line, object 40: t f b
   ⟨.obj, [[(62, 0)]], .bin .sub 0⟩,  -- 116: line, object 41: -
   ⟨.seq [none, none], [[(118, 0)], [(10, 0)]], .none⟩,  -- 117: line, object 42: t a a
   ⟨.seq [none, none], [[(60, 1)], [(66, 1)]], .none⟩,  -- 118: line, object 43: t a a
   ⟨.seq [none, none, some .bang], [[(110, 1)], [(66, 0)], [(58, 0)]], .none⟩,  -- 119: line, object 44: t a a b
   ⟨.seq [none, none, none], [[(10, 1)], [(61, 1)], [(40, 0)]], .none⟩,  -- 120: line, object 45: t a a a
   ⟨.seq [none, none], [[(1, 0)], [(66, 0)]], .none⟩,  -- 121: line, object 46: t a a
   ⟨.seq [none, none, none], [[(86, 0)], [(100, 0)], [(3, 0)]], .none⟩,  -- 122: line, object 47: t a a a
   ⟨.graph [124], [[(64, 0)], [(63, 0)]], .none⟩,  -- 123: line, object 48: unpack f f
   ⟨.inlet, [[(125, 0), (127, 0)]], .none⟩,  -- 124: line, object 48: unpack f f
   ⟨.obj, [[(126, 0)], []], .slice 1 1⟩,  -- 125: line, object 48: unpack f f
   ⟨.outlet 123 1, [], .none⟩,  -- 126: line, object 48: unpack f f
   ⟨.obj, [[(128, 0)], []], .slice 0 1⟩,  -- 127: line, object 48: unpack f f
   ⟨.outlet 123 0, [], .none⟩,  -- 128: line, object 48: unpack f f
   ⟨.seq [some .bang, some .bang, none, some .bang], [[(85, 0)], [(48, 0)], [(123, 0)], [(80, 0)]], .none⟩,  -- 129: line, object 49: t b b a b
   ⟨.graph [], [[(122, 0)]], .none⟩,  -- 130: line, object 50: loadbang
   ⟨.recv, [[(132, 0)]], .none⟩,  -- 131: loadbang, object 0: r __hv_init \$1
   ⟨.outlet 130 0, [], .none⟩,  -- 132: loadbang, object 1: outlet
   ⟨.obj, [], .probe 0⟩,  -- 133: outlet 0 of the abstraction
   ⟨.obj, [[(0, 0)]], .none⟩,  -- 134: an object of the surrounding patch, connected to inlet 0
   ⟨.obj, [[(0, 1)]], .none⟩,  -- 135: an object of the surrounding patch, connected to inlet 1
   ⟨.obj, [[(0, 2)]], .none⟩]  -- 136: an object of the surrounding patch, connected to inlet 2

/-- receivers by name, in the order of the file: 0 = __hv_init -/
def recvs : List (List Nat) := [[38, 131]]

/-- priorities of receivers, PdReceiveObject.py:96-100 -/
def prio : Nat → Int
  | 38 => 1999
  | 131 => 998
  | _ => 0

/-- the receivers in the order in which they fire -/
def order : List (List Nat) := [[38, 131]]

/-- the object connected to inlet `i` -/
def drv (i : Nat) : Nat := 134 + i

/-- the abstraction as it is (`Verif.Control`: C45, C35) -/
def mach (a1 : ℚ) (a2 : ℚ) (c : Ctx) : Mach := source c (nodes a1 a2) (recvsOf recvs) prio (recvsOf order)

/-- `M` is generated code -/
def Code (a1 : ℚ) (a2 : ℚ) (c : Ctx) (M : Mach) : Prop := Compiled c (nodes a1 a2) (recvsOf recvs) prio M

/-- what it means -/
def sys (a1 : ℚ) (a2 : ℚ) (c : Ctx) : Control.Sys St Msg := (mach a1 a2 c).sys

/-- kinds and connections -/
def shape : Shape :=
  [(.graph [2, 78, 79], [[(133, 0)]]),
   (.outlet 0 0, []),
   (.inlet, [[(68, 0)]]),
   (.graph [4], [[(67, 0)]]),
   (.inlet, [[(6, 0)]]),
   (.outlet 3 0, []),
   (.obj, [[(7, 0)]]),
   (.obj, [[(5, 0)]]),
   (.obj, [[(42, 1)]]),
   (.obj, [[(8, 0)]]),
   (.graph [11, 12], [[(42, 0)]]),
   (.inlet, [[(14, 0)]]),
   (.inlet, [[(31, 0)]]),
   (.outlet 10 0, []),
   (.obj, [[(15, 0)], [(15, 0)], [(18, 0)]]),
   (.obj, [[(17, 0)]]),
   (.seq [none, none], [[(13, 0)], [(17, 0)]]),
   (.obj, [[(16, 0)]]),
   (.graph [19], [[(22, 0)]]),
   (.inlet, [[(20, 0)]]),
   (.cast .bang, [[(21, 0)]]),
   (.outlet 18 0, []),
   (.seq [none, none], [[(16, 0)], [(15, 0)]]),
   (.obj, [[(17, 2)]]),
   (.graph [25], [[(29, 0)]]),
   (.inlet, [[(27, 0)]]),
   (.outlet 24 0, []),
   (.obj, [[(28, 0)]]),
   (.obj, [[(26, 0)]]),
   (.obj, [[(30, 1)]]),
   (.obj, [[(23, 0)]]),
   (.graph [34, 35], [[(30, 0)]]),
   (.obj, [[(33, 0)]]),
   (.outlet 31 0, []),
   (.inlet, [[(32, 0)]]),
   (.inlet, [[(32, 1)]]),
   (.seq [none, none], [[(31, 0)], [(24, 0)]]),
   (.graph [], [[(36, 0)]]),
   (.recv, [[(39, 0)]]),
   (.outlet 37 0, []),
   (.obj, [[(41, 0)]]),
   (.obj, [[(47, 1)]]),
   (.graph [45, 46], [[(47, 0), (59, 0)]]),
   (.obj, [[(44, 0)]]),
   (.outlet 42 0, []),
   (.inlet, [[(43, 0)]]),
   (.inlet, [[(43, 1)]]),
   (.obj, [[(42, 1)]]),
   (.obj, [[(10, 0)]]),
   (.graph [50, 51], [[(110, 0)], [(65, 0)], []]),
   (.inlet, [[(52, 0)]]),
   (.inlet, [[]]),
   (.obj, [[(54, 0)], [(56, 0)], [(53, 0)]]),
   (.outlet 49 2, []),
   (.cast .bang, [[(55, 0)]]),
   (.outlet 49 0, []),
   (.cast .bang, [[(57, 0)]]),
   (.outlet 49 1, []),
   (.obj, [[(117, 0)]]),
   (.obj, [[(49, 0)]]),
   (.obj, [[(110, 1)]]),
   (.obj, [[(62, 1)]]),
   (.obj, [[(118, 0)]]),
   (.seq [some .float, some .float], [[(61, 0)], [(9, 0)]]),
   (.seq [some .float, some .float], [[(116, 0)], [(105, 1)]]),
   (.seq [some .bang, some .bang], [[(105, 0)], [(58, 0)]]),
   (.obj, [[(100, 0)]]),
   (.seq [none, none], [[(9, 1)], [(40, 1)]]),
   (.graph [69, 70], [[(77, 0)], [(115, 0)], [(129, 0)]]),
   (.inlet, [[(71, 0)]]),
   (.inlet, [[]]),
   (.obj, [[(73, 0)], [(75, 0)], [(72, 0)]]),
   (.outlet 68 2, []),
   (.obj, [[(74, 0)], [(74, 0)]]),
   (.outlet 68 0, []),
   (.obj, [[(76, 0)], [(76, 0)]]),
   (.outlet 68 1, []),
   (.obj, [[(10, 0)]]),
   (.inlet, [[(80, 1)]]),
   (.inlet, [[(91, 0)]]),
   (.graph [83, 84], [[(63, 0)]]),
   (.obj, [[(82, 0)]]),
   (.outlet 80 0, []),
   (.inlet, [[(81, 0)]]),
   (.inlet, [[(81, 1)]]),
   (.obj, [[(80, 1)]]),
   (.graph [89, 90], [[(92, 0)]]),
   (.obj, [[(88, 0)]]),
   (.outlet 86 0, []),
   (.inlet, [[(87, 0)]]),
   (.inlet, [[(87, 1)]]),
   (.obj, [[(86, 0)]]),
   (.graph [93, 94], [[(99, 0)], [(120, 0)]]),
   (.inlet, [[(95, 0)]]),
   (.inlet, [[]]),
   (.obj, [[(97, 0)], [(96, 0)]]),
   (.outlet 92 1, []),
   (.cast .bang, [[(98, 0)]]),
   (.outlet 92 0, []),
   (.obj, [[(120, 0)]]),
   (.graph [103, 104], [[(116, 1)]]),
   (.obj, [[(102, 0)]]),
   (.outlet 100 0, []),
   (.inlet, [[(101, 0)]]),
   (.inlet, [[(101, 1)]]),
   (.graph [108, 109], [[(110, 0)]]),
   (.obj, [[(107, 0)]]),
   (.outlet 105 0, []),
   (.inlet, [[(106, 0)]]),
   (.inlet, [[(106, 1)]]),
   (.graph [113, 114], [[(60, 0), (121, 0)]]),
   (.obj, [[(112, 0)]]),
   (.outlet 110 0, []),
   (.inlet, [[(111, 0)]]),
   (.inlet, [[(111, 1)]]),
   (.seq [some .float, some .bang], [[(119, 0)], [(77, 0)]]),
   (.obj, [[(62, 0)]]),
   (.seq [none, none], [[(118, 0)], [(10, 0)]]),
   (.seq [none, none], [[(60, 1)], [(66, 1)]]),
   (.seq [none, none, some .bang], [[(110, 1)], [(66, 0)], [(58, 0)]]),
   (.seq [none, none, none], [[(10, 1)], [(61, 1)], [(40, 0)]]),
   (.seq [none, none], [[(1, 0)], [(66, 0)]]),
   (.seq [none, none, none], [[(86, 0)], [(100, 0)], [(3, 0)]]),
   (.graph [124], [[(64, 0)], [(63, 0)]]),
   (.inlet, [[(125, 0), (127, 0)]]),
   (.obj, [[(126, 0)], []]),
   (.outlet 123 1, []),
   (.obj, [[(128, 0)], []]),
   (.outlet 123 0, []),
   (.seq [some .bang, some .bang, none, some .bang], [[(85, 0)], [(48, 0)], [(123, 0)], [(80, 0)]]),
   (.graph [], [[(122, 0)]]),
   (.recv, [[(132, 0)]]),
   (.outlet 130 0, []),
   (.obj, []),
   (.obj, [[(0, 0)]]),
   (.obj, [[(0, 1)]]),
   (.obj, [[(0, 2)]])]

theorem shape_eq (a1 : ℚ) (a2 : ℚ) : shapeOf (nodes a1 a2) = shape := rfl

theorem checked (a1 : ℚ) (a2 : ℚ) : check (shapeOf (nodes a1 a2)) recvs order prio [0, 0, 0, 0, 0, 0, 0, 0, 0, 0, 0, 0, 0, 0, 0, 0, 1, 0, 0, 0, 0, 0, 2, 0, 0, 0, 0, 0, 0, 0, 0, 0, 0, 0, 0, 0, 1, 0, 0, 0, 0, 0, 0, 0, 0, 0, 0, 0, 0, 0, 0, 0, 0, 0, 0, 0, 0, 0, 0, 0, 0, 0, 0, 1, 1, 1, 0, 1, 0, 0, 0, 0, 0, 0, 0, 0, 0, 0, 0, 0, 0, 0, 0, 0, 0, 0, 0, 0, 0, 0, 0, 0, 0, 0, 0, 0, 0, 0, 0, 0, 0, 0, 0, 0, 0, 0, 0, 0, 0, 0, 0, 0, 0, 0, 0, 2, 0, 2, 1, 1, 1, 1, 1, 0, 0, 0, 0, 0, 0, 1, 0, 0, 0, 0, 0, 0, 0] = true := by
  rw [shape_eq]
  decide +kernel

theorem classes (a1 : ℚ) (a2 : ℚ) : clsOK (nodes a1 a2) = true := rfl

theorem drv_valid (a1 : ℚ) (a2 : ℚ) {i : Nat} (h : i < 3) (m : Msg) : (Control.Src.outlet (drv i) 0 m).Valid (mkPatch (nodes a1 a2) (recvsOf recvs) prio) (nodes a1 a2).length := by
  have : i = 0 ∨ i = 1 ∨ i = 2 := by omega
  rcases this with rfl | rfl | rfl <;> exact ⟨Nat.le_of_ble_eq_true rfl, rfl, Nat.le_of_ble_eq_true rfl⟩

/-- messages for the inlets there are -/
def Inlet : Ev → Prop
  | .ext _ i _ => i < 3
  | .tick => True

theorem driven (a1 : ℚ) (a2 : ℚ) {e : Ev} (h : Inlet e) : Driven (nodes a1 a2) (recvsOf recvs) prio drv e := by
  cases e with
  | ext t i m => exact drv_valid a1 a2 h
  | tick => trivial

theorem to_code {c : Ctx} {a1 : ℚ} {a2 : ℚ} {M : Mach} (hM : Code a1 a2 c M) {tab : Nat → List ℚ} {Fits : Ev → Prop} (hf : ∀ e, Fits e → Inlet e) {σ : Type}
    {on : σ → Ev → σ} {x0 : σ} {Sim : σ → St → Prop}
    (h : Simulates (mach a1 a2 c) drv (start c (nodes a1 a2) tab) Fits on x0 Sim) :
    Simulates M drv (start c (nodes a1 a2) tab) Fits on x0 (fun x s => Sim x s ∧ GoodQ (nodes a1 a2) s) :=
  h.code (checked a1 a2) (classes a1 a2) hM fun e he => driven a1 a2 (hf e he)

/-- it compiles -/
theorem code_exists (a1 : ℚ) (a2 : ℚ) (c : Ctx) : ∃ M, Code a1 a2 c M := exists_compiled c (checked a1 a2) (f := 20) (by rw [shape_eq]; decide +kernel)

/-! one lemma per object, for rewriting -/

theorem n0_0 (a1 : ℚ) (a2 : ℚ) (c : Ctx) (m : Msg) : (sys a1 a2 c).node (0, 0) m = .fwd false [((68, 0), m)] := rfl
theorem n0_1 (a1 : ℚ) (a2 : ℚ) (c : Ctx) (m : Msg) : (sys a1 a2 c).node (0, 1) m = .fwd false [((80, 1), m)] := rfl
theorem n0_2 (a1 : ℚ) (a2 : ℚ) (c : Ctx) (m : Msg) : (sys a1 a2 c).node (0, 2) m = .fwd false [((91, 0), m)] := rfl
theorem n1 (a1 : ℚ) (a2 : ℚ) (c : Ctx) (i : Nat) (m : Msg) : (sys a1 a2 c).node (1, i) m = .fwd false [((133, 0), m)] := rfl
theorem n3_0 (a1 : ℚ) (a2 : ℚ) (c : Ctx) (m : Msg) : (sys a1 a2 c).node (3, 0) m = .fwd false [((6, 0), m)] := rfl
theorem n5 (a1 : ℚ) (a2 : ℚ) (c : Ctx) (i : Nat) (m : Msg) : (sys a1 a2 c).node (5, i) m = .fwd false [((67, 0), m)] := rfl
theorem n6 (a1 : ℚ) (a2 : ℚ) (c : Ctx) (i : Nat) (m : Msg) : (sys a1 a2 c).node (6, i) m = .obj (beh c (.msg [.lit (.sym "samplerate")]) 6 i m) := rfl
theorem o6_0 (a1 : ℚ) (a2 : ℚ) (c : Ctx) : (sys a1 a2 c).out 6 0 = [(7, 0)] := rfl
theorem n7 (a1 : ℚ) (a2 : ℚ) (c : Ctx) (i : Nat) (m : Msg) : (sys a1 a2 c).node (7, i) m = .obj (beh c (.system) 7 i m) := rfl
theorem o7_0 (a1 : ℚ) (a2 : ℚ) (c : Ctx) : (sys a1 a2 c).out 7 0 = [(5, 0)] := rfl
theorem n8 (a1 : ℚ) (a2 : ℚ) (c : Ctx) (i : Nat) (m : Msg) : (sys a1 a2 c).node (8, i) m = .obj (beh c (.bink .div 1000) 8 i m) := rfl
theorem o8_0 (a1 : ℚ) (a2 : ℚ) (c : Ctx) : (sys a1 a2 c).out 8 0 = [(42, 1)] := rfl
theorem n9 (a1 : ℚ) (a2 : ℚ) (c : Ctx) (i : Nat) (m : Msg) : (sys a1 a2 c).node (9, i) m = .obj (beh c (.bin .mul 0) 9 i m) := rfl
theorem o9_0 (a1 : ℚ) (a2 : ℚ) (c : Ctx) : (sys a1 a2 c).out 9 0 = [(8, 0)] := rfl
theorem n10_0 (a1 : ℚ) (a2 : ℚ) (c : Ctx) (m : Msg) : (sys a1 a2 c).node (10, 0) m = .fwd false [((14, 0), m)] := rfl
theorem n10_1 (a1 : ℚ) (a2 : ℚ) (c : Ctx) (m : Msg) : (sys a1 a2 c).node (10, 1) m = .fwd false [((31, 0), m)] := rfl
theorem n13 (a1 : ℚ) (a2 : ℚ) (c : Ctx) (i : Nat) (m : Msg) : (sys a1 a2 c).node (13, i) m = .fwd false [((42, 0), m)] := rfl
theorem n14 (a1 : ℚ) (a2 : ℚ) (c : Ctx) (i : Nat) (m : Msg) : (sys a1 a2 c).node (14, i) m = .obj (beh c (.switch [(.float 0), (.sym "stop")]) 14 i m) := rfl
theorem o14_0 (a1 : ℚ) (a2 : ℚ) (c : Ctx) : (sys a1 a2 c).out 14 0 = [(15, 0)] := rfl
theorem o14_1 (a1 : ℚ) (a2 : ℚ) (c : Ctx) : (sys a1 a2 c).out 14 1 = [(15, 0)] := rfl
theorem o14_2 (a1 : ℚ) (a2 : ℚ) (c : Ctx) : (sys a1 a2 c).out 14 2 = [(18, 0)] := rfl
theorem n15 (a1 : ℚ) (a2 : ℚ) (c : Ctx) (i : Nat) (m : Msg) : (sys a1 a2 c).node (15, i) m = .obj (beh c (.msg [.lit (.sym "clear")]) 15 i m) := rfl
theorem o15_0 (a1 : ℚ) (a2 : ℚ) (c : Ctx) : (sys a1 a2 c).out 15 0 = [(17, 0)] := rfl
theorem n16 (a1 : ℚ) (a2 : ℚ) (c : Ctx) (i : Nat) (m : Msg) : (sys a1 a2 c).node (16, i) m = .fwd false ([((17, 0), m)] ++ ([((13, 0), m)] ++ ([]))) := rfl
theorem n17 (a1 : ℚ) (a2 : ℚ) (c : Ctx) (i : Nat) (m : Msg) : (sys a1 a2 c).node (17, i) m = .obj (beh c (.delay 0) 17 i m) := rfl
theorem o17_0 (a1 : ℚ) (a2 : ℚ) (c : Ctx) : (sys a1 a2 c).out 17 0 = [(16, 0)] := rfl
theorem n18_0 (a1 : ℚ) (a2 : ℚ) (c : Ctx) (m : Msg) : (sys a1 a2 c).node (18, 0) m = .fwd false [((20, 0), m)] := rfl
theorem n20 (a1 : ℚ) (a2 : ℚ) (c : Ctx) (i : Nat) (m : Msg) : (sys a1 a2 c).node (20, i) m = castNode .bang [(21, 0)] m := rfl
theorem n21 (a1 : ℚ) (a2 : ℚ) (c : Ctx) (i : Nat) (m : Msg) : (sys a1 a2 c).node (21, i) m = .fwd false [((22, 0), m)] := rfl
theorem n22 (a1 : ℚ) (a2 : ℚ) (c : Ctx) (i : Nat) (m : Msg) : (sys a1 a2 c).node (22, i) m = .fwd false ([((15, 0), m)] ++ ([((16, 0), m)] ++ ([]))) := rfl
theorem n23 (a1 : ℚ) (a2 : ℚ) (c : Ctx) (i : Nat) (m : Msg) : (sys a1 a2 c).node (23, i) m = .obj (beh c (.bink .max 1) 23 i m) := rfl
theorem o23_0 (a1 : ℚ) (a2 : ℚ) (c : Ctx) : (sys a1 a2 c).out 23 0 = [(17, 2)] := rfl
theorem n24_0 (a1 : ℚ) (a2 : ℚ) (c : Ctx) (m : Msg) : (sys a1 a2 c).node (24, 0) m = .fwd false [((27, 0), m)] := rfl
theorem n26 (a1 : ℚ) (a2 : ℚ) (c : Ctx) (i : Nat) (m : Msg) : (sys a1 a2 c).node (26, i) m = .fwd false [((29, 0), m)] := rfl
theorem n27 (a1 : ℚ) (a2 : ℚ) (c : Ctx) (i : Nat) (m : Msg) : (sys a1 a2 c).node (27, i) m = .obj (beh c (.msg [.lit (.sym "samplerate")]) 27 i m) := rfl
theorem o27_0 (a1 : ℚ) (a2 : ℚ) (c : Ctx) : (sys a1 a2 c).out 27 0 = [(28, 0)] := rfl
theorem n28 (a1 : ℚ) (a2 : ℚ) (c : Ctx) (i : Nat) (m : Msg) : (sys a1 a2 c).node (28, i) m = .obj (beh c (.system) 28 i m) := rfl
theorem o28_0 (a1 : ℚ) (a2 : ℚ) (c : Ctx) : (sys a1 a2 c).out 28 0 = [(26, 0)] := rfl
theorem n29 (a1 : ℚ) (a2 : ℚ) (c : Ctx) (i : Nat) (m : Msg) : (sys a1 a2 c).node (29, i) m = .obj (beh c (.bink .div 1000) 29 i m) := rfl
theorem o29_0 (a1 : ℚ) (a2 : ℚ) (c : Ctx) : (sys a1 a2 c).out 29 0 = [(30, 1)] := rfl
theorem n30 (a1 : ℚ) (a2 : ℚ) (c : Ctx) (i : Nat) (m : Msg) : (sys a1 a2 c).node (30, i) m = .obj (beh c (.bin .mul 0) 30 i m) := rfl
theorem o30_0 (a1 : ℚ) (a2 : ℚ) (c : Ctx) : (sys a1 a2 c).out 30 0 = [(23, 0)] := rfl
theorem n31_0 (a1 : ℚ) (a2 : ℚ) (c : Ctx) (m : Msg) : (sys a1 a2 c).node (31, 0) m = .fwd false [((32, 0), m)] := rfl
theorem n31_1 (a1 : ℚ) (a2 : ℚ) (c : Ctx) (m : Msg) : (sys a1 a2 c).node (31, 1) m = .fwd false [((32, 1), m)] := rfl
theorem n32 (a1 : ℚ) (a2 : ℚ) (c : Ctx) (i : Nat) (m : Msg) : (sys a1 a2 c).node (32, i) m = .obj (beh c (.var (.float 20)) 32 i m) := rfl
theorem o32_0 (a1 : ℚ) (a2 : ℚ) (c : Ctx) : (sys a1 a2 c).out 32 0 = [(33, 0)] := rfl
theorem n33 (a1 : ℚ) (a2 : ℚ) (c : Ctx) (i : Nat) (m : Msg) : (sys a1 a2 c).node (33, i) m = .fwd false [((30, 0), m)] := rfl
theorem n36 (a1 : ℚ) (a2 : ℚ) (c : Ctx) (i : Nat) (m : Msg) : (sys a1 a2 c).node (36, i) m = .fwd false ([((24, 0), m)] ++ ([((31, 0), m)] ++ ([]))) := rfl
theorem n39 (a1 : ℚ) (a2 : ℚ) (c : Ctx) (i : Nat) (m : Msg) : (sys a1 a2 c).node (39, i) m = .fwd false [((36, 0), m)] := rfl
theorem n40 (a1 : ℚ) (a2 : ℚ) (c : Ctx) (i : Nat) (m : Msg) : (sys a1 a2 c).node (40, i) m = .obj (beh c (.bin .mul 0) 40 i m) := rfl
theorem o40_0 (a1 : ℚ) (a2 : ℚ) (c : Ctx) : (sys a1 a2 c).out 40 0 = [(41, 0)] := rfl
theorem n41 (a1 : ℚ) (a2 : ℚ) (c : Ctx) (i : Nat) (m : Msg) : (sys a1 a2 c).node (41, i) m = .obj (beh c (.bink .div 1000) 41 i m) := rfl
theorem o41_0 (a1 : ℚ) (a2 : ℚ) (c : Ctx) : (sys a1 a2 c).out 41 0 = [(47, 1)] := rfl
theorem n42_0 (a1 : ℚ) (a2 : ℚ) (c : Ctx) (m : Msg) : (sys a1 a2 c).node (42, 0) m = .fwd false [((43, 0), m)] := rfl
theorem n42_1 (a1 : ℚ) (a2 : ℚ) (c : Ctx) (m : Msg) : (sys a1 a2 c).node (42, 1) m = .fwd false [((43, 1), m)] := rfl
theorem n43 (a1 : ℚ) (a2 : ℚ) (c : Ctx) (i : Nat) (m : Msg) : (sys a1 a2 c).node (43, i) m = .obj (beh c (.var (.float 0)) 43 i m) := rfl
theorem o43_0 (a1 : ℚ) (a2 : ℚ) (c : Ctx) : (sys a1 a2 c).out 43 0 = [(44, 0)] := rfl
theorem n44 (a1 : ℚ) (a2 : ℚ) (c : Ctx) (i : Nat) (m : Msg) : (sys a1 a2 c).node (44, i) m = .fwd false [((47, 0), m), ((59, 0), m)] := rfl
theorem n47 (a1 : ℚ) (a2 : ℚ) (c : Ctx) (i : Nat) (m : Msg) : (sys a1 a2 c).node (47, i) m = .obj (beh c (.bin .sub 0) 47 i m) := rfl
theorem o47_0 (a1 : ℚ) (a2 : ℚ) (c : Ctx) : (sys a1 a2 c).out 47 0 = [(42, 1)] := rfl
theorem n48 (a1 : ℚ) (a2 : ℚ) (c : Ctx) (i : Nat) (m : Msg) : (sys a1 a2 c).node (48, i) m = .obj (beh c (.msg [.lit (.float 1)]) 48 i m) := rfl
theorem o48_0 (a1 : ℚ) (a2 : ℚ) (c : Ctx) : (sys a1 a2 c).out 48 0 = [(10, 0)] := rfl
theorem n49_0 (a1 : ℚ) (a2 : ℚ) (c : Ctx) (m : Msg) : (sys a1 a2 c).node (49, 0) m = .fwd false [((52, 0), m)] := rfl
theorem n49_1 (a1 : ℚ) (a2 : ℚ) (c : Ctx) (m : Msg) : (sys a1 a2 c).node (49, 1) m = .fwd false [] := rfl
theorem n52 (a1 : ℚ) (a2 : ℚ) (c : Ctx) (i : Nat) (m : Msg) : (sys a1 a2 c).node (52, i) m = .obj (beh c (.switch [(.float 0), (.float 1)]) 52 i m) := rfl
theorem o52_0 (a1 : ℚ) (a2 : ℚ) (c : Ctx) : (sys a1 a2 c).out 52 0 = [(54, 0)] := rfl
theorem o52_1 (a1 : ℚ) (a2 : ℚ) (c : Ctx) : (sys a1 a2 c).out 52 1 = [(56, 0)] := rfl
theorem o52_2 (a1 : ℚ) (a2 : ℚ) (c : Ctx) : (sys a1 a2 c).out 52 2 = [(53, 0)] := rfl
theorem n53 (a1 : ℚ) (a2 : ℚ) (c : Ctx) (i : Nat) (m : Msg) : (sys a1 a2 c).node (53, i) m = .fwd false [] := rfl
theorem n54 (a1 : ℚ) (a2 : ℚ) (c : Ctx) (i : Nat) (m : Msg) : (sys a1 a2 c).node (54, i) m = castNode .bang [(55, 0)] m := rfl
theorem n55 (a1 : ℚ) (a2 : ℚ) (c : Ctx) (i : Nat) (m : Msg) : (sys a1 a2 c).node (55, i) m = .fwd false [((110, 0), m)] := rfl
theorem n56 (a1 : ℚ) (a2 : ℚ) (c : Ctx) (i : Nat) (m : Msg) : (sys a1 a2 c).node (56, i) m = castNode .bang [(57, 0)] m := rfl
theorem n57 (a1 : ℚ) (a2 : ℚ) (c : Ctx) (i : Nat) (m : Msg) : (sys a1 a2 c).node (57, i) m = .fwd false [((65, 0), m)] := rfl
theorem n58 (a1 : ℚ) (a2 : ℚ) (c : Ctx) (i : Nat) (m : Msg) : (sys a1 a2 c).node (58, i) m = .obj (beh c (.msg [.lit (.float 0)]) 58 i m) := rfl
theorem o58_0 (a1 : ℚ) (a2 : ℚ) (c : Ctx) : (sys a1 a2 c).out 58 0 = [(117, 0)] := rfl
theorem n59 (a1 : ℚ) (a2 : ℚ) (c : Ctx) (i : Nat) (m : Msg) : (sys a1 a2 c).node (59, i) m = .obj (beh c (.bink .le 0) 59 i m) := rfl
theorem o59_0 (a1 : ℚ) (a2 : ℚ) (c : Ctx) : (sys a1 a2 c).out 59 0 = [(49, 0)] := rfl
theorem n60 (a1 : ℚ) (a2 : ℚ) (c : Ctx) (i : Nat) (m : Msg) : (sys a1 a2 c).node (60, i) m = .obj (beh c (.bin .add 0) 60 i m) := rfl
theorem o60_0 (a1 : ℚ) (a2 : ℚ) (c : Ctx) : (sys a1 a2 c).out 60 0 = [(110, 1)] := rfl
theorem n61 (a1 : ℚ) (a2 : ℚ) (c : Ctx) (i : Nat) (m : Msg) : (sys a1 a2 c).node (61, i) m = .obj (beh c (.bin .div 20) 61 i m) := rfl
theorem o61_0 (a1 : ℚ) (a2 : ℚ) (c : Ctx) : (sys a1 a2 c).out 61 0 = [(62, 1)] := rfl
theorem n62 (a1 : ℚ) (a2 : ℚ) (c : Ctx) (i : Nat) (m : Msg) : (sys a1 a2 c).node (62, i) m = .obj (beh c (.bin .div 0) 62 i m) := rfl
theorem o62_0 (a1 : ℚ) (a2 : ℚ) (c : Ctx) : (sys a1 a2 c).out 62 0 = [(118, 0)] := rfl
theorem n63 (a1 : ℚ) (a2 : ℚ) (c : Ctx) (i : Nat) (m : Msg) : (sys a1 a2 c).node (63, i) m = .fwd false (castTo .float [(9, 0)] m ++ (castTo .float [(61, 0)] m ++ ([]))) := by rcases m with _ | ⟨_ | _ | _, _⟩ <;> rfl
theorem n64 (a1 : ℚ) (a2 : ℚ) (c : Ctx) (i : Nat) (m : Msg) : (sys a1 a2 c).node (64, i) m = .fwd false (castTo .float [(105, 1)] m ++ (castTo .float [(116, 0)] m ++ ([]))) := by rcases m with _ | ⟨_ | _ | _, _⟩ <;> rfl
theorem n65 (a1 : ℚ) (a2 : ℚ) (c : Ctx) (i : Nat) (m : Msg) : (sys a1 a2 c).node (65, i) m = .fwd false (castTo .bang [(58, 0)] m ++ (castTo .bang [(105, 0)] m ++ ([]))) := rfl
theorem n66 (a1 : ℚ) (a2 : ℚ) (c : Ctx) (i : Nat) (m : Msg) : (sys a1 a2 c).node (66, i) m = .obj (beh c (.bin .add 0) 66 i m) := rfl
theorem o66_0 (a1 : ℚ) (a2 : ℚ) (c : Ctx) : (sys a1 a2 c).out 66 0 = [(100, 0)] := rfl
theorem n67 (a1 : ℚ) (a2 : ℚ) (c : Ctx) (i : Nat) (m : Msg) : (sys a1 a2 c).node (67, i) m = .fwd false ([((40, 1), m)] ++ ([((9, 1), m)] ++ ([]))) := rfl
theorem n68_0 (a1 : ℚ) (a2 : ℚ) (c : Ctx) (m : Msg) : (sys a1 a2 c).node (68, 0) m = .fwd false [((71, 0), m)] := rfl
theorem n68_1 (a1 : ℚ) (a2 : ℚ) (c : Ctx) (m : Msg) : (sys a1 a2 c).node (68, 1) m = .fwd false [] := rfl
theorem n71 (a1 : ℚ) (a2 : ℚ) (c : Ctx) (i : Nat) (m : Msg) : (sys a1 a2 c).node (71, i) m = .obj (beh c (.switch [(.sym "stop"), (.sym "set")]) 71 i m) := rfl
theorem o71_0 (a1 : ℚ) (a2 : ℚ) (c : Ctx) : (sys a1 a2 c).out 71 0 = [(73, 0)] := rfl
theorem o71_1 (a1 : ℚ) (a2 : ℚ) (c : Ctx) : (sys a1 a2 c).out 71 1 = [(75, 0)] := rfl
theorem o71_2 (a1 : ℚ) (a2 : ℚ) (c : Ctx) : (sys a1 a2 c).out 71 2 = [(72, 0)] := rfl
theorem n72 (a1 : ℚ) (a2 : ℚ) (c : Ctx) (i : Nat) (m : Msg) : (sys a1 a2 c).node (72, i) m = .fwd false [((129, 0), m)] := rfl
theorem n73 (a1 : ℚ) (a2 : ℚ) (c : Ctx) (i : Nat) (m : Msg) : (sys a1 a2 c).node (73, i) m = .obj (beh c (.slice 1 0) 73 i m) := rfl
theorem o73_0 (a1 : ℚ) (a2 : ℚ) (c : Ctx) : (sys a1 a2 c).out 73 0 = [(74, 0)] := rfl
theorem o73_1 (a1 : ℚ) (a2 : ℚ) (c : Ctx) : (sys a1 a2 c).out 73 1 = [(74, 0)] := rfl
theorem n74 (a1 : ℚ) (a2 : ℚ) (c : Ctx) (i : Nat) (m : Msg) : (sys a1 a2 c).node (74, i) m = .fwd false [((77, 0), m)] := rfl
theorem n75 (a1 : ℚ) (a2 : ℚ) (c : Ctx) (i : Nat) (m : Msg) : (sys a1 a2 c).node (75, i) m = .obj (beh c (.slice 1 0) 75 i m) := rfl
theorem o75_0 (a1 : ℚ) (a2 : ℚ) (c : Ctx) : (sys a1 a2 c).out 75 0 = [(76, 0)] := rfl
theorem o75_1 (a1 : ℚ) (a2 : ℚ) (c : Ctx) : (sys a1 a2 c).out 75 1 = [(76, 0)] := rfl
theorem n76 (a1 : ℚ) (a2 : ℚ) (c : Ctx) (i : Nat) (m : Msg) : (sys a1 a2 c).node (76, i) m = .fwd false [((115, 0), m)] := rfl
theorem n77 (a1 : ℚ) (a2 : ℚ) (c : Ctx) (i : Nat) (m : Msg) : (sys a1 a2 c).node (77, i) m = .obj (beh c (.msg [.lit (.float 0)]) 77 i m) := rfl
theorem o77_0 (a1 : ℚ) (a2 : ℚ) (c : Ctx) : (sys a1 a2 c).out 77 0 = [(10, 0)] := rfl
theorem n80_0 (a1 : ℚ) (a2 : ℚ) (c : Ctx) (m : Msg) : (sys a1 a2 c).node (80, 0) m = .fwd false [((81, 0), m)] := rfl
theorem n80_1 (a1 : ℚ) (a2 : ℚ) (c : Ctx) (m : Msg) : (sys a1 a2 c).node (80, 1) m = .fwd false [((81, 1), m)] := rfl
theorem n81 (a1 : ℚ) (a2 : ℚ) (c : Ctx) (i : Nat) (m : Msg) : (sys a1 a2 c).node (81, i) m = .obj (beh c (.var (.float 0)) 81 i m) := rfl
theorem o81_0 (a1 : ℚ) (a2 : ℚ) (c : Ctx) : (sys a1 a2 c).out 81 0 = [(82, 0)] := rfl
theorem n82 (a1 : ℚ) (a2 : ℚ) (c : Ctx) (i : Nat) (m : Msg) : (sys a1 a2 c).node (82, i) m = .fwd false [((63, 0), m)] := rfl
theorem n85 (a1 : ℚ) (a2 : ℚ) (c : Ctx) (i : Nat) (m : Msg) : (sys a1 a2 c).node (85, i) m = .obj (beh c (.msg [.lit (.float 0)]) 85 i m) := rfl
theorem o85_0 (a1 : ℚ) (a2 : ℚ) (c : Ctx) : (sys a1 a2 c).out 85 0 = [(80, 1)] := rfl
theorem n86_0 (a1 : ℚ) (a2 : ℚ) (c : Ctx) (m : Msg) : (sys a1 a2 c).node (86, 0) m = .fwd false [((87, 0), m)] := rfl
theorem n86_1 (a1 : ℚ) (a2 : ℚ) (c : Ctx) (m : Msg) : (sys a1 a2 c).node (86, 1) m = .fwd false [((87, 1), m)] := rfl
theorem n87 (a1 : ℚ) (a2 : ℚ) (c : Ctx) (i : Nat) (m : Msg) : (sys a1 a2 c).node (87, i) m = .obj (beh c (.var (.float a2)) 87 i m) := rfl
theorem o87_0 (a1 : ℚ) (a2 : ℚ) (c : Ctx) : (sys a1 a2 c).out 87 0 = [(88, 0)] := rfl
theorem n88 (a1 : ℚ) (a2 : ℚ) (c : Ctx) (i : Nat) (m : Msg) : (sys a1 a2 c).node (88, i) m = .fwd false [((92, 0), m)] := rfl
theorem n91 (a1 : ℚ) (a2 : ℚ) (c : Ctx) (i : Nat) (m : Msg) : (sys a1 a2 c).node (91, i) m = .obj (beh c (.bink .max 0) 91 i m) := rfl
theorem o91_0 (a1 : ℚ) (a2 : ℚ) (c : Ctx) : (sys a1 a2 c).out 91 0 = [(86, 0)] := rfl
theorem n92_0 (a1 : ℚ) (a2 : ℚ) (c : Ctx) (m : Msg) : (sys a1 a2 c).node (92, 0) m = .fwd false [((95, 0), m)] := rfl
theorem n92_1 (a1 : ℚ) (a2 : ℚ) (c : Ctx) (m : Msg) : (sys a1 a2 c).node (92, 1) m = .fwd false [] := rfl
theorem n95 (a1 : ℚ) (a2 : ℚ) (c : Ctx) (i : Nat) (m : Msg) : (sys a1 a2 c).node (95, i) m = .obj (beh c (.switch [(.float 0)]) 95 i m) := rfl
theorem o95_0 (a1 : ℚ) (a2 : ℚ) (c : Ctx) : (sys a1 a2 c).out 95 0 = [(97, 0)] := rfl
theorem o95_1 (a1 : ℚ) (a2 : ℚ) (c : Ctx) : (sys a1 a2 c).out 95 1 = [(96, 0)] := rfl
theorem n96 (a1 : ℚ) (a2 : ℚ) (c : Ctx) (i : Nat) (m : Msg) : (sys a1 a2 c).node (96, i) m = .fwd false [((120, 0), m)] := rfl
theorem n97 (a1 : ℚ) (a2 : ℚ) (c : Ctx) (i : Nat) (m : Msg) : (sys a1 a2 c).node (97, i) m = castNode .bang [(98, 0)] m := rfl
theorem n98 (a1 : ℚ) (a2 : ℚ) (c : Ctx) (i : Nat) (m : Msg) : (sys a1 a2 c).node (98, i) m = .fwd false [((99, 0), m)] := rfl
theorem n99 (a1 : ℚ) (a2 : ℚ) (c : Ctx) (i : Nat) (m : Msg) : (sys a1 a2 c).node (99, i) m = .obj (beh c (.msg [.lit (.float 20)]) 99 i m) := rfl
theorem o99_0 (a1 : ℚ) (a2 : ℚ) (c : Ctx) : (sys a1 a2 c).out 99 0 = [(120, 0)] := rfl
theorem n100_0 (a1 : ℚ) (a2 : ℚ) (c : Ctx) (m : Msg) : (sys a1 a2 c).node (100, 0) m = .fwd false [((101, 0), m)] := rfl
theorem n100_1 (a1 : ℚ) (a2 : ℚ) (c : Ctx) (m : Msg) : (sys a1 a2 c).node (100, 1) m = .fwd false [((101, 1), m)] := rfl
theorem n101 (a1 : ℚ) (a2 : ℚ) (c : Ctx) (i : Nat) (m : Msg) : (sys a1 a2 c).node (101, i) m = .obj (beh c (.var (.float a1)) 101 i m) := rfl
theorem o101_0 (a1 : ℚ) (a2 : ℚ) (c : Ctx) : (sys a1 a2 c).out 101 0 = [(102, 0)] := rfl
theorem n102 (a1 : ℚ) (a2 : ℚ) (c : Ctx) (i : Nat) (m : Msg) : (sys a1 a2 c).node (102, i) m = .fwd false [((116, 1), m)] := rfl
theorem n105_0 (a1 : ℚ) (a2 : ℚ) (c : Ctx) (m : Msg) : (sys a1 a2 c).node (105, 0) m = .fwd false [((106, 0), m)] := rfl
theorem n105_1 (a1 : ℚ) (a2 : ℚ) (c : Ctx) (m : Msg) : (sys a1 a2 c).node (105, 1) m = .fwd false [((106, 1), m)] := rfl
theorem n106 (a1 : ℚ) (a2 : ℚ) (c : Ctx) (i : Nat) (m : Msg) : (sys a1 a2 c).node (106, i) m = .obj (beh c (.var (.float 0)) 106 i m) := rfl
theorem o106_0 (a1 : ℚ) (a2 : ℚ) (c : Ctx) : (sys a1 a2 c).out 106 0 = [(107, 0)] := rfl
theorem n107 (a1 : ℚ) (a2 : ℚ) (c : Ctx) (i : Nat) (m : Msg) : (sys a1 a2 c).node (107, i) m = .fwd false [((110, 0), m)] := rfl
theorem n110_0 (a1 : ℚ) (a2 : ℚ) (c : Ctx) (m : Msg) : (sys a1 a2 c).node (110, 0) m = .fwd false [((111, 0), m)] := rfl
theorem n110_1 (a1 : ℚ) (a2 : ℚ) (c : Ctx) (m : Msg) : (sys a1 a2 c).node (110, 1) m = .fwd false [((111, 1), m)] := rfl
theorem n111 (a1 : ℚ) (a2 : ℚ) (c : Ctx) (i : Nat) (m : Msg) : (sys a1 a2 c).node (111, i) m = .obj (beh c (.var (.float a1)) 111 i m) := rfl
theorem o111_0 (a1 : ℚ) (a2 : ℚ) (c : Ctx) : (sys a1 a2 c).out 111 0 = [(112, 0)] := rfl
theorem n112 (a1 : ℚ) (a2 : ℚ) (c : Ctx) (i : Nat) (m : Msg) : (sys a1 a2 c).node (112, i) m = .fwd false [((60, 0), m), ((121, 0), m)] := rfl
theorem n115 (a1 : ℚ) (a2 : ℚ) (c : Ctx) (i : Nat) (m : Msg) : (sys a1 a2 c).node (115, i) m = .fwd false (castTo .bang [(77, 0)] m ++ (castTo .float [(119, 0)] m ++ ([]))) := by rcases m with _ | ⟨_ | _ | _, _⟩ <;> rfl
theorem n116 (a1 : ℚ) (a2 : ℚ) (c : Ctx) (i : Nat) (m : Msg) : (sys a1 a2 c).node (116, i) m = .obj (beh c (.bin .sub 0) 116 i m) := rfl
theorem o116_0 (a1 : ℚ) (a2 : ℚ) (c : Ctx) : (sys a1 a2 c).out 116 0 = [(62, 0)] := rfl
theorem n117 (a1 : ℚ) (a2 : ℚ) (c : Ctx) (i : Nat) (m : Msg) : (sys a1 a2 c).node (117, i) m = .fwd false ([((10, 0), m)] ++ ([((118, 0), m)] ++ ([]))) := rfl
theorem n118 (a1 : ℚ) (a2 : ℚ) (c : Ctx) (i : Nat) (m : Msg) : (sys a1 a2 c).node (118, i) m = .fwd false ([((66, 1), m)] ++ ([((60, 1), m)] ++ ([]))) := rfl
theorem n119 (a1 : ℚ) (a2 : ℚ) (c : Ctx) (i : Nat) (m : Msg) : (sys a1 a2 c).node (119, i) m = .fwd false (castTo .bang [(58, 0)] m ++ ([((66, 0), m)] ++ ([((110, 1), m)] ++ ([])))) := rfl
theorem n120 (a1 : ℚ) (a2 : ℚ) (c : Ctx) (i : Nat) (m : Msg) : (sys a1 a2 c).node (120, i) m = .fwd false ([((40, 0), m)] ++ ([((61, 1), m)] ++ ([((10, 1), m)] ++ ([])))) := rfl
theorem n121 (a1 : ℚ) (a2 : ℚ) (c : Ctx) (i : Nat) (m : Msg) : (sys a1 a2 c).node (121, i) m = .fwd false ([((66, 0), m)] ++ ([((1, 0), m)] ++ ([]))) := rfl
theorem n122 (a1 : ℚ) (a2 : ℚ) (c : Ctx) (i : Nat) (m : Msg) : (sys a1 a2 c).node (122, i) m = .fwd false ([((3, 0), m)] ++ ([((100, 0), m)] ++ ([((86, 0), m)] ++ ([])))) := rfl
theorem n123_0 (a1 : ℚ) (a2 : ℚ) (c : Ctx) (m : Msg) : (sys a1 a2 c).node (123, 0) m = .fwd false [((125, 0), m), ((127, 0), m)] := rfl
theorem n125 (a1 : ℚ) (a2 : ℚ) (c : Ctx) (i : Nat) (m : Msg) : (sys a1 a2 c).node (125, i) m = .obj (beh c (.slice 1 1) 125 i m) := rfl
theorem o125_0 (a1 : ℚ) (a2 : ℚ) (c : Ctx) : (sys a1 a2 c).out 125 0 = [(126, 0)] := rfl
theorem o125_1 (a1 : ℚ) (a2 : ℚ) (c : Ctx) : (sys a1 a2 c).out 125 1 = [] := rfl
theorem n126 (a1 : ℚ) (a2 : ℚ) (c : Ctx) (i : Nat) (m : Msg) : (sys a1 a2 c).node (126, i) m = .fwd false [((63, 0), m)] := rfl
theorem n127 (a1 : ℚ) (a2 : ℚ) (c : Ctx) (i : Nat) (m : Msg) : (sys a1 a2 c).node (127, i) m = .obj (beh c (.slice 0 1) 127 i m) := rfl
theorem o127_0 (a1 : ℚ) (a2 : ℚ) (c : Ctx) : (sys a1 a2 c).out 127 0 = [(128, 0)] := rfl
theorem o127_1 (a1 : ℚ) (a2 : ℚ) (c : Ctx) : (sys a1 a2 c).out 127 1 = [] := rfl
theorem n128 (a1 : ℚ) (a2 : ℚ) (c : Ctx) (i : Nat) (m : Msg) : (sys a1 a2 c).node (128, i) m = .fwd false [((64, 0), m)] := rfl
theorem n129 (a1 : ℚ) (a2 : ℚ) (c : Ctx) (i : Nat) (m : Msg) : (sys a1 a2 c).node (129, i) m = .fwd false (castTo .bang [(80, 0)] m ++ ([((123, 0), m)] ++ (castTo .bang [(48, 0)] m ++ (castTo .bang [(85, 0)] m ++ ([]))))) := rfl
theorem n132 (a1 : ℚ) (a2 : ℚ) (c : Ctx) (i : Nat) (m : Msg) : (sys a1 a2 c).node (132, i) m = .fwd false [((122, 0), m)] := rfl
theorem n133 (a1 : ℚ) (a2 : ℚ) (c : Ctx) (i : Nat) (m : Msg) : (sys a1 a2 c).node (133, i) m = .obj (beh c (.probe 0) 133 i m) := rfl
theorem n134 (a1 : ℚ) (a2 : ℚ) (c : Ctx) (i : Nat) (m : Msg) : (sys a1 a2 c).node (134, i) m = .obj (beh c (.none) 134 i m) := rfl
theorem o134_0 (a1 : ℚ) (a2 : ℚ) (c : Ctx) : (sys a1 a2 c).out 134 0 = [(0, 0)] := rfl
theorem n135 (a1 : ℚ) (a2 : ℚ) (c : Ctx) (i : Nat) (m : Msg) : (sys a1 a2 c).node (135, i) m = .obj (beh c (.none) 135 i m) := rfl
theorem o135_0 (a1 : ℚ) (a2 : ℚ) (c : Ctx) : (sys a1 a2 c).out 135 0 = [(0, 1)] := rfl
theorem n136 (a1 : ℚ) (a2 : ℚ) (c : Ctx) (i : Nat) (m : Msg) : (sys a1 a2 c).node (136, i) m = .obj (beh c (.none) 136 i m) := rfl
theorem o136_0 (a1 : ℚ) (a2 : ℚ) (c : Ctx) : (sys a1 a2 c).out 136 0 = [(0, 2)] := rfl

attribute [lib_line] n0_0 n0_1 n0_2 n1 n3_0 n5 n6 o6_0 n7 o7_0 n8 o8_0 n9 o9_0 n10_0 n10_1 n13 n14 o14_0 o14_1 o14_2 n15 o15_0 n16 n17 o17_0 n18_0 n20 n21 n22 n23 o23_0 n24_0 n26 n27 o27_0 n28 o28_0 n29 o29_0 n30 o30_0 n31_0 n31_1 n32 o32_0 n33 n36 n39 n40 o40_0 n41 o41_0 n42_0 n42_1 n43 o43_0 n44 n47 o47_0 n48 o48_0 n49_0 n49_1 n52 o52_0 o52_1 o52_2 n53 n54 n55 n56 n57 n58 o58_0 n59 o59_0 n60 o60_0 n61 o61_0 n62 o62_0 n63 n64 n65 n66 o66_0 n67 n68_0 n68_1 n71 o71_0 o71_1 o71_2 n72 n73 o73_0 o73_1 n74 n75 o75_0 o75_1 n76 n77 o77_0 n80_0 n80_1 n81 o81_0 n82 n85 o85_0 n86_0 n86_1 n87 o87_0 n88 n91 o91_0 n92_0 n92_1 n95 o95_0 o95_1 n96 n97 n98 n99 o99_0 n100_0 n100_1 n101 o101_0 n102 n105_0 n105_1 n106 o106_0 n107 n110_0 n110_1 n111 o111_0 n112 n115 n116 o116_0 n117 n118 n119 n120 n121 n122 n123_0 n125 o125_0 o125_1 n126 n127 o127_0 o127_1 n128 n129 n132 n133 n134 o134_0 n135 o135_0 n136 o136_0

end Verif.Lib.Line
