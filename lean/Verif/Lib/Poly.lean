import Verif.LibTree
/-!
The abstraction `[poly]`: transcription of hvcc/interpreters/pd2hv/libs/pd/poly.pd and of the library files it uses, made by
tools/pdlib.py.  Object `0` is the abstraction itself, its outlets are connected to `.probe`s.
-/
set_option linter.unusedVariables false
set_option linter.style.longLine false
set_option maxRecDepth 100000
namespace Verif.Lib.Poly
open Verif.Control (Dest Kind Cast Patch)

/-- the objects of hvcc/interpreters/pd2hv/libs/pd/poly.pd: kind, connections of each outlet, class (part 0) -/
def b0 (a1 : ℚ) (a2 : ℚ) : List Node :=
  [⟨.graph [62, 46], [[(816, 0)], [(817, 0)], [(818, 0)]], .none⟩,  -- 0: poly
   ⟨.send 1, [[]], .none⟩,  -- 1: poly, object 0: s \$0-shouldSteal
   ⟨.obj, [[(13, 1)]], .bink .add 1⟩,  -- 2: poly, object 1: + 1
   ⟨.send 2, [[]], .none⟩,  -- 3: poly, object 2: s \$0-currentVoiceId
   ⟨.outlet 0 1, [], .none⟩,  -- 4: poly, object 3: outlet pitch
   ⟨.outlet 0 2, [], .none⟩,  -- 5: poly, object 4: outlet velocity
   ⟨.graph [], [[(22, 0)]], .none⟩,  -- 6: poly, object 5: loadbang
   ⟨.recv, [[(8, 0)]], .none⟩,  -- 7: loadbang, object 0: r __hv_init \$1
   ⟨.outlet 6 0, [], .none⟩,  -- 8: loadbang, object 1: outlet
   ⟨.obj, [[(63, 0)]], .var (.float a2)⟩,  -- 9: poly, object 6: \$2
   ⟨.outlet 0 0, [], .none⟩,  -- 10: poly, object 7: outlet id
   ⟨.obj, [[(10, 0)]], .bink .add 1⟩,  -- 11: poly, object 8: + 1
   ⟨.recv, [[(13, 0)]], .none⟩,  -- 12: poly, object 9: r \$0-voiceId++
   ⟨.graph [16, 17], [[(18, 0)]], .none⟩,  -- 13: poly, object 10: f 0
   ⟨.obj, [[(15, 0)]], .var (.float 0)⟩,  -- 14: f, object 1: pd @hv_obj __var \$1
   ⟨.outlet 13 0, [], .none⟩]  -- 15: f, object 2: outlet

/-- the objects of hvcc/interpreters/pd2hv/libs/pd/poly.pd: kind, connections of each outlet, class (part 1) -/
def b1 (a1 : ℚ) (a2 : ℚ) : List Node :=
  [⟨.inlet, [[(14, 0)]], .none⟩,  -- 16: f, object 3: inlet -->
   ⟨.inlet, [[(14, 1)]], .none⟩,  -- 17: f, object 4: inlet -->
   ⟨.obj, [[(2, 0), (3, 0)]], .bin .mod 65535⟩,  -- 18: poly, object 11: mod 65535
   ⟨.obj, [[]], .none⟩,  -- 19: poly, object 12: table \$0-pitches \$1
   ⟨.obj, [[]], .none⟩,  -- 20: poly, object 13: table \$0-used \$1
   ⟨.obj, [[]], .none⟩,  -- 21: poly, object 14: table \$0-ids \$1
   ⟨.seq [some .bang, some .bang], [[(9, 0)], [(24, 0)]], .none⟩,  -- 22: poly, object 15: t b b
   ⟨.send 4, [[]], .none⟩,  -- 23: poly, object 16: s \$0-maxVoiceId
   ⟨.obj, [[(23, 0)]], .msg [.lit (.float 65535)]⟩,  -- 24: poly, object 17: 65535
   ⟨.recv, [[(18, 1)]], .none⟩,  -- 25: poly, object 18: r \$0-maxVoiceId
   ⟨.graph [27, 28], [[(272, 0)], [(390, 0)], [(35, 0)]], .none⟩,  -- 26: poly, object 19: route stop clear
   ⟨.inlet, [[(29, 0)]], .none⟩,  -- 27: poly, object 19: route stop clear
   ⟨.inlet, [[]], .none⟩,  -- 28: poly, object 19: route stop clear
   ⟨.obj, [[(31, 0)], [(33, 0)], [(30, 0)]], .switch [(.sym "stop"), (.sym "clear")]⟩,  -- 29: poly, object 19: route stop clear
   ⟨.outlet 26 2, [], .none⟩,  -- 30: poly, object 19: route stop clear
   ⟨.obj, [[(32, 0)], [(32, 0)]], .slice 1 0⟩]  -- 31: poly, object 19: route stop clear

/-- the objects of hvcc/interpreters/pd2hv/libs/pd/poly.pd: kind, connections of each outlet, class (part 2) -/
def b2 (a1 : ℚ) (a2 : ℚ) : List Node :=
  [⟨.outlet 26 0, [], .none⟩,  -- 32: poly, object 19: route stop clear
   ⟨.obj, [[(34, 0)], [(34, 0)]], .slice 1 0⟩,  -- 33: poly, object 19: route stop clear
   ⟨.outlet 26 1, [], .none⟩,  -- 34: poly, object 19: route stop clear
   ⟨.graph [36], [[(61, 0)], [(41, 0)]], .none⟩,  -- 35: poly, object 20: unpack f f
   ⟨.inlet, [[(37, 0), (39, 0)]], .none⟩,  -- 36: poly, object 20: unpack f f
   ⟨.obj, [[(38, 0)], []], .slice 1 1⟩,  -- 37: poly, object 20: unpack f f
   ⟨.outlet 35 1, [], .none⟩,  -- 38: poly, object 20: unpack f f
   ⟨.obj, [[(40, 0)], []], .slice 0 1⟩,  -- 39: poly, object 20: unpack f f
   ⟨.outlet 35 0, [], .none⟩,  -- 40: poly, object 20: unpack f f
   ⟨.graph [44, 45], [[(54, 0)]], .none⟩,  -- 41: poly, object 21: f
   ⟨.obj, [[(43, 0)]], .var (.float 0)⟩,  -- 42: f, object 1: pd @hv_obj __var \$1
   ⟨.outlet 41 0, [], .none⟩,  -- 43: f, object 2: outlet
   ⟨.inlet, [[(42, 0)]], .none⟩,  -- 44: f, object 3: inlet -->
   ⟨.inlet, [[(42, 1)]], .none⟩,  -- 45: f, object 4: inlet -->
   ⟨.inlet, [[(41, 0)]], .none⟩,  -- 46: poly, object 22: inlet velocity
   ⟨.obj, [[(48, 0)]], .bink .gt 0⟩]  -- 47: poly, object 23: > 0

/-- the objects of hvcc/interpreters/pd2hv/libs/pd/poly.pd: kind, connections of each outlet, class (part 3) -/
def b3 (a1 : ℚ) (a2 : ℚ) : List Node :=
  [⟨.seq [none, none], [[(60, 0)], [(49, 1)]], .none⟩,  -- 48: poly, object 24: t a a
   ⟨.graph [50, 51], [[(476, 0)]], .none⟩,  -- 49: poly, object 25: spigot 0
   ⟨.inlet, [[(53, 0)]], .none⟩,  -- 50: spigot, object 0: inlet
   ⟨.inlet, [[(53, 1)]], .none⟩,  -- 51: spigot, object 1: inlet
   ⟨.outlet 49 0, [], .none⟩,  -- 52: spigot, object 2: outlet
   ⟨.obj, [[], [(52, 0)]], .ite 0⟩,  -- 53: spigot, object 4: pd @hv_obj if \$1
   ⟨.seq [none, none, none], [[(47, 0)], [(64, 1)], [(476, 1)]], .none⟩,  -- 54: poly, object 26: t a a a
   ⟨.graph [56, 57], [[(64, 0)]], .none⟩,  -- 55: poly, object 27: spigot 0
   ⟨.inlet, [[(59, 0)]], .none⟩,  -- 56: spigot, object 0: inlet
   ⟨.inlet, [[(59, 1)]], .none⟩,  -- 57: spigot, object 1: inlet
   ⟨.outlet 55 0, [], .none⟩,  -- 58: spigot, object 2: outlet
   ⟨.obj, [[], [(58, 0)]], .ite 0⟩,  -- 59: spigot, object 4: pd @hv_obj if \$1
   ⟨.obj, [[(55, 1)]], .bink .eq 0⟩,  -- 60: poly, object 28: == 0
   ⟨.seq [none, none], [[(55, 0)], [(49, 0)]], .none⟩,  -- 61: poly, object 29: t a a
   ⟨.inlet, [[(26, 0)]], .none⟩,  -- 62: poly, object 30: inlet pitch
   ⟨.obj, [[(1, 0)]], .bink .neq 0⟩]  -- 63: poly, object 31: != 0

/-- the objects of hvcc/interpreters/pd2hv/libs/pd/poly.pd: kind, connections of each outlet, class (part 4) -/
def b4 (a1 : ℚ) (a2 : ℚ) : List Node :=
  [⟨.graph [268, 269], [[(11, 0)], [(4, 0)], [(5, 0)]], .none⟩,  -- 64: poly, object 32: pd NoteOff
   ⟨.outlet 64 1, [], .none⟩,  -- 65: poly, [pd NoteOff], object 0: outlet pitch
   ⟨.outlet 64 2, [], .none⟩,  -- 66: poly, [pd NoteOff], object 1: outlet velocity
   ⟨.outlet 64 0, [], .none⟩,  -- 67: poly, [pd NoteOff], object 2: outlet id
   ⟨.graph [69], [[(110, 0)]], .none⟩,  -- 68: poly, [pd NoteOff], object 3: pd count
   ⟨.inlet, [[(94, 0)]], .none⟩,  -- 69: poly, [pd NoteOff], [pd count], object 0: inlet
   ⟨.seq [some .float, some .float], [[(71, 0)], [(76, 0)]], .none⟩,  -- 70: poly, [pd NoteOff], [pd count], object 1: t f f
   ⟨.graph [72, 73], [[(108, 0)]], .none⟩,  -- 71: poly, [pd NoteOff], [pd count], object 2: spigot 0
   ⟨.inlet, [[(75, 0)]], .none⟩,  -- 72: spigot, object 0: inlet
   ⟨.inlet, [[(75, 1)]], .none⟩,  -- 73: spigot, object 1: inlet
   ⟨.outlet 71 0, [], .none⟩,  -- 74: spigot, object 2: outlet
   ⟨.obj, [[], [(74, 0)]], .ite 0⟩,  -- 75: spigot, object 4: pd @hv_obj if \$1
   ⟨.obj, [[(71, 1)]], .bin .lt 0⟩,  -- 76: poly, [pd NoteOff], [pd count], object 3: <
   ⟨.seq [some .float, some .float], [[(84, 0)], [(76, 1)]], .none⟩,  -- 77: poly, [pd NoteOff], [pd count], object 4: t f f
   ⟨.graph [81, 82], [[(70, 0)]], .none⟩,  -- 78: poly, [pd NoteOff], [pd count], object 5: f
   ⟨.obj, [[(80, 0)]], .var (.float 0)⟩]  -- 79: f, object 1: pd @hv_obj __var \$1

/-- the objects of hvcc/interpreters/pd2hv/libs/pd/poly.pd: kind, connections of each outlet, class (part 5) -/
def b5 (a1 : ℚ) (a2 : ℚ) : List Node :=
  [⟨.outlet 78 0, [], .none⟩,  -- 80: f, object 2: outlet
   ⟨.inlet, [[(79, 0)]], .none⟩,  -- 81: f, object 3: inlet -->
   ⟨.inlet, [[(79, 1)]], .none⟩,  -- 82: f, object 4: inlet -->
   ⟨.obj, [[(78, 0)]], .bink .add 1⟩,  -- 83: poly, [pd NoteOff], [pd count], object 6: + 1
   ⟨.obj, [[(78, 0)]], .msg [.lit (.float 0)]⟩,  -- 84: poly, [pd NoteOff], [pd count], object 7: 0
   ⟨.outlet 68 0, [], .none⟩,  -- 85: poly, [pd NoteOff], [pd count], object 8: outlet
   ⟨.graph [87, 88], [[], [(77, 0)]], .none⟩,  -- 86: poly, [pd NoteOff], [pd count], object 9: moses 1
   ⟨.inlet, [[(92, 0)]], .none⟩,  -- 87: moses, object 0: inlet
   ⟨.inlet, [[(91, 1)]], .none⟩,  -- 88: moses, object 1: inlet
   ⟨.outlet 86 0, [], .none⟩,  -- 89: moses, object 2: outlet
   ⟨.outlet 86 1, [], .none⟩,  -- 90: moses, object 3: outlet
   ⟨.obj, [[(93, 1)]], .bin .ge 1⟩,  -- 91: moses, object 4: >= \$1
   ⟨.seq [none, none], [[(93, 0)], [(91, 0)]], .none⟩,  -- 92: moses, object 6: t a a
   ⟨.obj, [[(89, 0)], [(90, 0)]], .ite 0⟩,  -- 93: moses, object 7: pd @hv_obj __if
   ⟨.graph [95, 101], [[(86, 0)]], .none⟩,  -- 94: poly, [pd NoteOff], [pd count], object 10: int
   ⟨.inlet, [[(96, 0)]], .none⟩]  -- 95: int, object 0: inlet

/-- the objects of hvcc/interpreters/pd2hv/libs/pd/poly.pd: kind, connections of each outlet, class (part 6) -/
def b6 (a1 : ℚ) (a2 : ℚ) : List Node :=
  [⟨.graph [99, 100], [[(107, 0)]], .none⟩,  -- 96: int, object 1: f \$1
   ⟨.obj, [[(98, 0)]], .var (.float 0)⟩,  -- 97: f, object 1: pd @hv_obj __var \$1
   ⟨.outlet 96 0, [], .none⟩,  -- 98: f, object 2: outlet
   ⟨.inlet, [[(97, 0)]], .none⟩,  -- 99: f, object 3: inlet -->
   ⟨.inlet, [[(97, 1)]], .none⟩,  -- 100: f, object 4: inlet -->
   ⟨.inlet, [[(96, 1)]], .none⟩,  -- 101: int, object 2: inlet
   ⟨.outlet 94 0, [], .none⟩,  -- 102: int, object 3: outlet
   ⟨.obj, [[(106, 0)], [(105, 0)]], .ite 0⟩,  -- 103: int, object 4: pd @hv_obj if \$1
   ⟨.obj, [[(103, 1)]], .bink .gt 0⟩,  -- 104: int, object 5: > 0
   ⟨.obj, [[(102, 0)]], .un .floor⟩,  -- 105: int, object 6: pd @hv_obj __floor
   ⟨.obj, [[(102, 0)]], .un .ceil⟩,  -- 106: int, object 7: pd @hv_obj __ceil
   ⟨.seq [none, none], [[(103, 0)], [(104, 0)]], .none⟩,  -- 107: int, object 9: t a a
   ⟨.seq [some .float, some .float], [[(83, 0)], [(85, 0)]], .none⟩,  -- 108: poly, [pd NoteOff], [pd count], object 11: t f f
   ⟨.obj, [[(68, 0)]], .var (.float a1)⟩,  -- 109: poly, [pd NoteOff], object 4: \$1
   ⟨.seq [some .float, some .float, some .float, some .float], [[(170, 0)], [(112, 0)], [(134, 0)], [(156, 1)]], .none⟩,  -- 110: poly, [pd NoteOff], object 5: t f f f f
   ⟨.obj, [[(271, 0), (156, 0)]], .msg [.lit (.float 0)]⟩]  -- 111: poly, [pd NoteOff], object 6: 0

/-- the objects of hvcc/interpreters/pd2hv/libs/pd/poly.pd: kind, connections of each outlet, class (part 7) -/
def b7 (a1 : ℚ) (a2 : ℚ) : List Node :=
  [⟨.graph [113], [[(194, 0)]], .none⟩,  -- 112: poly, [pd NoteOff], object 7: tabread \$0-used
   ⟨.inlet, [[(116, 0)]], .none⟩,  -- 113: tabread, object 0: inlet -->
   ⟨.outlet 112 0, [], .none⟩,  -- 114: tabread, object 1: outlet -->
   ⟨.obj, [[(114, 0)]], .tabread 1⟩,  -- 115: tabread, object 2: pd @hv_obj __tabread \$1
   ⟨.graph [117, 118], [[(115, 1)], [(125, 0)]], .none⟩,  -- 116: tabread, object 3: route set
   ⟨.inlet, [[(119, 0)]], .none⟩,  -- 117: tabread, object 3: route set
   ⟨.inlet, [[]], .none⟩,  -- 118: tabread, object 3: route set
   ⟨.obj, [[(121, 0)], [(120, 0)]], .switch [(.sym "set")]⟩,  -- 119: tabread, object 3: route set
   ⟨.outlet 116 1, [], .none⟩,  -- 120: tabread, object 3: route set
   ⟨.obj, [[(122, 0)], [(122, 0)]], .slice 1 0⟩,  -- 121: tabread, object 3: route set
   ⟨.outlet 116 0, [], .none⟩,  -- 122: tabread, object 3: route set
   ⟨.obj, [[(133, 0)]], .system⟩,  -- 123: tabread, object 5: pd @hv_obj system
   ⟨.obj, [[(131, 0)]], .bink .max 0⟩,  -- 124: tabread, object 6: max 0
   ⟨.seq [some .float, some .bang], [[(124, 0)], [(126, 0)]], .none⟩,  -- 125: tabread, object 7: t f b
   ⟨.graph [127, 130], [[(132, 0)]], .none⟩,  -- 126: tabread, object 8: symbol \$1
   ⟨.inlet, [[(129, 0)]], .none⟩]  -- 127: symbol, object 0: inlet

/-- the objects of hvcc/interpreters/pd2hv/libs/pd/poly.pd: kind, connections of each outlet, class (part 8) -/
def b8 (a1 : ℚ) (a2 : ℚ) : List Node :=
  [⟨.outlet 126 0, [], .none⟩,  -- 128: symbol, object 1: outlet
   ⟨.obj, [[(128, 0)]], .var (.sym "1-used")⟩,  -- 129: symbol, object 2: pd @hv_obj __var \$1
   ⟨.inlet, [[(129, 1)]], .none⟩,  -- 130: symbol, object 3: inlet
   ⟨.obj, [[(115, 0)]], .bin .min 0⟩,  -- 131: tabread, object 9: min 0
   ⟨.obj, [[(123, 0)]], .msg [.lit (.sym "table"), .arg 0, .lit (.sym "length")]⟩,  -- 132: tabread, object 10: table \$1 length
   ⟨.obj, [[(131, 1)]], .bink .sub 1⟩,  -- 133: tabread, object 11: - 1
   ⟨.graph [135], [[(215, 0)]], .none⟩,  -- 134: poly, [pd NoteOff], object 8: tabread \$0-ids
   ⟨.inlet, [[(138, 0)]], .none⟩,  -- 135: tabread, object 0: inlet -->
   ⟨.outlet 134 0, [], .none⟩,  -- 136: tabread, object 1: outlet -->
   ⟨.obj, [[(136, 0)]], .tabread 2⟩,  -- 137: tabread, object 2: pd @hv_obj __tabread \$1
   ⟨.graph [139, 140], [[(137, 1)], [(147, 0)]], .none⟩,  -- 138: tabread, object 3: route set
   ⟨.inlet, [[(141, 0)]], .none⟩,  -- 139: tabread, object 3: route set
   ⟨.inlet, [[]], .none⟩,  -- 140: tabread, object 3: route set
   ⟨.obj, [[(143, 0)], [(142, 0)]], .switch [(.sym "set")]⟩,  -- 141: tabread, object 3: route set
   ⟨.outlet 138 1, [], .none⟩,  -- 142: tabread, object 3: route set
   ⟨.obj, [[(144, 0)], [(144, 0)]], .slice 1 0⟩]  -- 143: tabread, object 3: route set

/-- the objects of hvcc/interpreters/pd2hv/libs/pd/poly.pd: kind, connections of each outlet, class (part 9) -/
def b9 (a1 : ℚ) (a2 : ℚ) : List Node :=
  [⟨.outlet 138 0, [], .none⟩,  -- 144: tabread, object 3: route set
   ⟨.obj, [[(155, 0)]], .system⟩,  -- 145: tabread, object 5: pd @hv_obj system
   ⟨.obj, [[(153, 0)]], .bink .max 0⟩,  -- 146: tabread, object 6: max 0
   ⟨.seq [some .float, some .bang], [[(146, 0)], [(148, 0)]], .none⟩,  -- 147: tabread, object 7: t f b
   ⟨.graph [149, 152], [[(154, 0)]], .none⟩,  -- 148: tabread, object 8: symbol \$1
   ⟨.inlet, [[(151, 0)]], .none⟩,  -- 149: symbol, object 0: inlet
   ⟨.outlet 148 0, [], .none⟩,  -- 150: symbol, object 1: outlet
   ⟨.obj, [[(150, 0)]], .var (.sym "1-ids")⟩,  -- 151: symbol, object 2: pd @hv_obj __var \$1
   ⟨.inlet, [[(151, 1)]], .none⟩,  -- 152: symbol, object 3: inlet
   ⟨.obj, [[(137, 0)]], .bin .min 0⟩,  -- 153: tabread, object 9: min 0
   ⟨.obj, [[(145, 0)]], .msg [.lit (.sym "table"), .arg 0, .lit (.sym "length")]⟩,  -- 154: tabread, object 10: table \$1 length
   ⟨.obj, [[(153, 1)]], .bink .sub 1⟩,  -- 155: tabread, object 11: - 1
   ⟨.graph [159, 160], [[(221, 1), (233, 1), (255, 1)]], .none⟩,  -- 156: poly, [pd NoteOff], object 9: f
   ⟨.obj, [[(158, 0)]], .var (.float 0)⟩,  -- 157: f, object 1: pd @hv_obj __var \$1
   ⟨.outlet 156 0, [], .none⟩,  -- 158: f, object 2: outlet
   ⟨.inlet, [[(157, 0)]], .none⟩]  -- 159: f, object 3: inlet -->

/-- the objects of hvcc/interpreters/pd2hv/libs/pd/poly.pd: kind, connections of each outlet, class (part 10) -/
def b10 (a1 : ℚ) (a2 : ℚ) : List Node :=
  [⟨.inlet, [[(157, 1)]], .none⟩,  -- 160: f, object 4: inlet -->
   ⟨.obj, [[(271, 0)]], .msg [.lit (.float 1)]⟩,  -- 161: poly, [pd NoteOff], object 10: 1
   ⟨.seq [none, none, some .bang, some .bang], [[(216, 0)], [(163, 0)], [(111, 0)], [(196, 0)]], .none⟩,  -- 162: poly, [pd NoteOff], object 11: t a a b b
   ⟨.graph [164], [[(169, 0)], []], .none⟩,  -- 163: poly, [pd NoteOff], object 12: unpack f f
   ⟨.inlet, [[(165, 0), (167, 0)]], .none⟩,  -- 164: poly, [pd NoteOff], object 12: unpack f f
   ⟨.obj, [[(166, 0)], []], .slice 1 1⟩,  -- 165: poly, [pd NoteOff], object 12: unpack f f
   ⟨.outlet 163 1, [], .none⟩,  -- 166: poly, [pd NoteOff], object 12: unpack f f
   ⟨.obj, [[(168, 0)], []], .slice 0 1⟩,  -- 167: poly, [pd NoteOff], object 12: unpack f f
   ⟨.outlet 163 0, [], .none⟩,  -- 168: poly, [pd NoteOff], object 12: unpack f f
   ⟨.seq [some .bang, some .float], [[(109, 0)], [(192, 1)]], .none⟩,  -- 169: poly, [pd NoteOff], object 13: t b f
   ⟨.graph [171], [[(192, 0)]], .none⟩,  -- 170: poly, [pd NoteOff], object 14: tabread \$0-pitches
   ⟨.inlet, [[(174, 0)]], .none⟩,  -- 171: tabread, object 0: inlet -->
   ⟨.outlet 170 0, [], .none⟩,  -- 172: tabread, object 1: outlet -->
   ⟨.obj, [[(172, 0)]], .tabread 0⟩,  -- 173: tabread, object 2: pd @hv_obj __tabread \$1
   ⟨.graph [175, 176], [[(173, 1)], [(183, 0)]], .none⟩,  -- 174: tabread, object 3: route set
   ⟨.inlet, [[(177, 0)]], .none⟩]  -- 175: tabread, object 3: route set

/-- the objects of hvcc/interpreters/pd2hv/libs/pd/poly.pd: kind, connections of each outlet, class (part 11) -/
def b11 (a1 : ℚ) (a2 : ℚ) : List Node :=
  [⟨.inlet, [[]], .none⟩,  -- 176: tabread, object 3: route set
   ⟨.obj, [[(179, 0)], [(178, 0)]], .switch [(.sym "set")]⟩,  -- 177: tabread, object 3: route set
   ⟨.outlet 174 1, [], .none⟩,  -- 178: tabread, object 3: route set
   ⟨.obj, [[(180, 0)], [(180, 0)]], .slice 1 0⟩,  -- 179: tabread, object 3: route set
   ⟨.outlet 174 0, [], .none⟩,  -- 180: tabread, object 3: route set
   ⟨.obj, [[(191, 0)]], .system⟩,  -- 181: tabread, object 5: pd @hv_obj system
   ⟨.obj, [[(189, 0)]], .bink .max 0⟩,  -- 182: tabread, object 6: max 0
   ⟨.seq [some .float, some .bang], [[(182, 0)], [(184, 0)]], .none⟩,  -- 183: tabread, object 7: t f b
   ⟨.graph [185, 188], [[(190, 0)]], .none⟩,  -- 184: tabread, object 8: symbol \$1
   ⟨.inlet, [[(187, 0)]], .none⟩,  -- 185: symbol, object 0: inlet
   ⟨.outlet 184 0, [], .none⟩,  -- 186: symbol, object 1: outlet
   ⟨.obj, [[(186, 0)]], .var (.sym "1-pitches")⟩,  -- 187: symbol, object 2: pd @hv_obj __var \$1
   ⟨.inlet, [[(187, 1)]], .none⟩,  -- 188: symbol, object 3: inlet
   ⟨.obj, [[(173, 0)]], .bin .min 0⟩,  -- 189: tabread, object 9: min 0
   ⟨.obj, [[(181, 0)]], .msg [.lit (.sym "table"), .arg 0, .lit (.sym "length")]⟩,  -- 190: tabread, object 10: table \$1 length
   ⟨.obj, [[(189, 1)]], .bink .sub 1⟩]  -- 191: tabread, object 11: - 1

/-- the objects of hvcc/interpreters/pd2hv/libs/pd/poly.pd: kind, connections of each outlet, class (part 12) -/
def b12 (a1 : ℚ) (a2 : ℚ) : List Node :=
  [⟨.obj, [[(193, 0)]], .bin .eq 0⟩,  -- 192: poly, [pd NoteOff], object 15: ==
   ⟨.obj, [[(202, 0)]], .bin .and 0⟩,  -- 193: poly, [pd NoteOff], object 16: &&
   ⟨.obj, [[(193, 1)]], .bin .and 0⟩,  -- 194: poly, [pd NoteOff], object 17: &&
   ⟨.recv, [[(196, 1)]], .none⟩,  -- 195: poly, [pd NoteOff], object 18: r \$0-maxVoiceId
   ⟨.graph [199, 200], [[(201, 1)]], .none⟩,  -- 196: poly, [pd NoteOff], object 19: f
   ⟨.obj, [[(198, 0)]], .var (.float 0)⟩,  -- 197: f, object 1: pd @hv_obj __var \$1
   ⟨.outlet 196 0, [], .none⟩,  -- 198: f, object 2: outlet
   ⟨.inlet, [[(197, 0)]], .none⟩,  -- 199: f, object 3: inlet -->
   ⟨.inlet, [[(197, 1)]], .none⟩,  -- 200: f, object 4: inlet -->
   ⟨.obj, [[(194, 1)]], .bin .lt 0⟩,  -- 201: poly, [pd NoteOff], object 20: <
   ⟨.graph [203, 204], [[(209, 0)], []], .none⟩,  -- 202: poly, [pd NoteOff], object 21: sel 1
   ⟨.inlet, [[(205, 0)]], .none⟩,  -- 203: poly, [pd NoteOff], object 21: sel 1
   ⟨.inlet, [[]], .none⟩,  -- 204: poly, [pd NoteOff], object 21: sel 1
   ⟨.obj, [[(207, 0)], [(206, 0)]], .switch [(.float 1)]⟩,  -- 205: poly, [pd NoteOff], object 21: sel 1
   ⟨.outlet 202 1, [], .none⟩,  -- 206: poly, [pd NoteOff], object 21: sel 1
   ⟨.cast .bang, [[(208, 0)]], .none⟩]  -- 207: poly, [pd NoteOff], object 21: sel 1

/-- the objects of hvcc/interpreters/pd2hv/libs/pd/poly.pd: kind, connections of each outlet, class (part 13) -/
def b13 (a1 : ℚ) (a2 : ℚ) : List Node :=
  [⟨.outlet 202 0, [], .none⟩,  -- 208: poly, [pd NoteOff], object 21: sel 1
   ⟨.seq [some .bang, some .bang, some .bang], [[(156, 0)], [(161, 0)], [(210, 0)]], .none⟩,  -- 209: poly, [pd NoteOff], object 22: t b b b
   ⟨.graph [213, 214], [[(201, 1)]], .none⟩,  -- 210: poly, [pd NoteOff], object 23: f
   ⟨.obj, [[(212, 0)]], .var (.float 0)⟩,  -- 211: f, object 1: pd @hv_obj __var \$1
   ⟨.outlet 210 0, [], .none⟩,  -- 212: f, object 2: outlet
   ⟨.inlet, [[(211, 0)]], .none⟩,  -- 213: f, object 3: inlet -->
   ⟨.inlet, [[(211, 1)]], .none⟩,  -- 214: f, object 4: inlet -->
   ⟨.seq [some .float, some .float], [[(201, 0)], [(210, 1)]], .none⟩,  -- 215: poly, [pd NoteOff], object 24: t f f
   ⟨.graph [217, 218], [[(253, 0)]], .none⟩,  -- 216: poly, [pd NoteOff], object 25: spigot 0
   ⟨.inlet, [[(220, 0)]], .none⟩,  -- 217: spigot, object 0: inlet
   ⟨.inlet, [[(220, 1)]], .none⟩,  -- 218: spigot, object 1: inlet
   ⟨.outlet 216 0, [], .none⟩,  -- 219: spigot, object 2: outlet
   ⟨.obj, [[], [(219, 0)]], .ite 0⟩,  -- 220: spigot, object 4: pd @hv_obj if \$1
   ⟨.graph [222, 223], [[]], .none⟩,  -- 221: poly, [pd NoteOff], object 26: tabwrite \$0-used
   ⟨.inlet, [[(226, 0)]], .none⟩,  -- 222: tabwrite, object 0: inlet -->
   ⟨.inlet, [[(225, 1)]], .none⟩]  -- 223: tabwrite, object 1: inlet -->

/-- the objects of hvcc/interpreters/pd2hv/libs/pd/poly.pd: kind, connections of each outlet, class (part 14) -/
def b14 (a1 : ℚ) (a2 : ℚ) : List Node :=
  [⟨.outlet 221 0, [], .none⟩,  -- 224: tabwrite, object 2: outlet -->
   ⟨.obj, [[(224, 0)]], .tabwrite 1⟩,  -- 225: tabwrite, object 3: pd @hv_obj __tabwrite \$1
   ⟨.graph [227, 228], [[(225, 2)], [(225, 0)]], .none⟩,  -- 226: tabwrite, object 4: route set
   ⟨.inlet, [[(229, 0)]], .none⟩,  -- 227: tabwrite, object 4: route set
   ⟨.inlet, [[]], .none⟩,  -- 228: tabwrite, object 4: route set
   ⟨.obj, [[(231, 0)], [(230, 0)]], .switch [(.sym "set")]⟩,  -- 229: tabwrite, object 4: route set
   ⟨.outlet 226 1, [], .none⟩,  -- 230: tabwrite, object 4: route set
   ⟨.obj, [[(232, 0)], [(232, 0)]], .slice 1 0⟩,  -- 231: tabwrite, object 4: route set
   ⟨.outlet 226 0, [], .none⟩,  -- 232: tabwrite, object 4: route set
   ⟨.graph [234, 235], [[]], .none⟩,  -- 233: poly, [pd NoteOff], object 27: tabwrite \$0-ids
   ⟨.inlet, [[(238, 0)]], .none⟩,  -- 234: tabwrite, object 0: inlet -->
   ⟨.inlet, [[(237, 1)]], .none⟩,  -- 235: tabwrite, object 1: inlet -->
   ⟨.outlet 233 0, [], .none⟩,  -- 236: tabwrite, object 2: outlet -->
   ⟨.obj, [[(236, 0)]], .tabwrite 2⟩,  -- 237: tabwrite, object 3: pd @hv_obj __tabwrite \$1
   ⟨.graph [239, 240], [[(237, 2)], [(237, 0)]], .none⟩,  -- 238: tabwrite, object 4: route set
   ⟨.inlet, [[(241, 0)]], .none⟩]  -- 239: tabwrite, object 4: route set

/-- the objects of hvcc/interpreters/pd2hv/libs/pd/poly.pd: kind, connections of each outlet, class (part 15) -/
def b15 (a1 : ℚ) (a2 : ℚ) : List Node :=
  [⟨.inlet, [[]], .none⟩,  -- 240: tabwrite, object 4: route set
   ⟨.obj, [[(243, 0)], [(242, 0)]], .switch [(.sym "set")]⟩,  -- 241: tabwrite, object 4: route set
   ⟨.outlet 238 1, [], .none⟩,  -- 242: tabwrite, object 4: route set
   ⟨.obj, [[(244, 0)], [(244, 0)]], .slice 1 0⟩,  -- 243: tabwrite, object 4: route set
   ⟨.outlet 238 0, [], .none⟩,  -- 244: tabwrite, object 4: route set
   ⟨.seq [some .bang, some .bang], [[(248, 0)], [(247, 0)]], .none⟩,  -- 245: poly, [pd NoteOff], object 28: t b b
   ⟨.recv, [[(248, 1)]], .none⟩,  -- 246: poly, [pd NoteOff], object 29: r \$0-currentVoiceId
   ⟨.send 3, [[]], .none⟩,  -- 247: poly, [pd NoteOff], object 30: s \$0-voiceId++
   ⟨.graph [251, 252], [[(233, 0)]], .none⟩,  -- 248: poly, [pd NoteOff], object 31: f
   ⟨.obj, [[(250, 0)]], .var (.float 0)⟩,  -- 249: f, object 1: pd @hv_obj __var \$1
   ⟨.outlet 248 0, [], .none⟩,  -- 250: f, object 2: outlet
   ⟨.inlet, [[(249, 0)]], .none⟩,  -- 251: f, object 3: inlet -->
   ⟨.inlet, [[(249, 1)]], .none⟩,  -- 252: f, object 4: inlet -->
   ⟨.seq [none, some .bang, some .bang], [[(260, 0)], [(245, 0)], [(254, 0)]], .none⟩,  -- 253: poly, [pd NoteOff], object 32: t a b b
   ⟨.obj, [[(221, 0)]], .msg [.lit (.float 0)]⟩,  -- 254: poly, [pd NoteOff], object 33: 0
   ⟨.graph [258, 259], [[(67, 0)]], .none⟩]  -- 255: poly, [pd NoteOff], object 34: f

/-- the objects of hvcc/interpreters/pd2hv/libs/pd/poly.pd: kind, connections of each outlet, class (part 16) -/
def b16 (a1 : ℚ) (a2 : ℚ) : List Node :=
  [⟨.obj, [[(257, 0)]], .var (.float 0)⟩,  -- 256: f, object 1: pd @hv_obj __var \$1
   ⟨.outlet 255 0, [], .none⟩,  -- 257: f, object 2: outlet
   ⟨.inlet, [[(256, 0)]], .none⟩,  -- 258: f, object 3: inlet -->
   ⟨.inlet, [[(256, 1)]], .none⟩,  -- 259: f, object 4: inlet -->
   ⟨.seq [some .bang, none, some .bang], [[(255, 0)], [(261, 0)], [(267, 0)]], .none⟩,  -- 260: poly, [pd NoteOff], object 35: t b a b
   ⟨.graph [262], [[(65, 0)], []], .none⟩,  -- 261: poly, [pd NoteOff], object 36: unpack f f
   ⟨.inlet, [[(263, 0), (265, 0)]], .none⟩,  -- 262: poly, [pd NoteOff], object 36: unpack f f
   ⟨.obj, [[(264, 0)], []], .slice 1 1⟩,  -- 263: poly, [pd NoteOff], object 36: unpack f f
   ⟨.outlet 261 1, [], .none⟩,  -- 264: poly, [pd NoteOff], object 36: unpack f f
   ⟨.obj, [[(266, 0)], []], .slice 0 1⟩,  -- 265: poly, [pd NoteOff], object 36: unpack f f
   ⟨.outlet 261 0, [], .none⟩,  -- 266: poly, [pd NoteOff], object 36: unpack f f
   ⟨.obj, [[(66, 0)]], .msg [.lit (.float 0)]⟩,  -- 267: poly, [pd NoteOff], object 37: 0
   ⟨.inlet, [[(270, 0)]], .none⟩,  -- 268: poly, [pd NoteOff], object 38: inlet pitch
   ⟨.inlet, [[(270, 1)]], .none⟩,  -- 269: poly, [pd NoteOff], object 39: inlet velocity
   ⟨.obj, [[(162, 0)]], .pack [0, 0]⟩,  -- 270: poly, [pd NoteOff], object 40: pack f f
   ⟨.seq [none], [[(216, 1)]], .none⟩]  -- 271: poly, [pd NoteOff], object 41: t a

/-- the objects of hvcc/interpreters/pd2hv/libs/pd/poly.pd: kind, connections of each outlet, class (part 17) -/
def b17 (a1 : ℚ) (a2 : ℚ) : List Node :=
  [⟨.graph [273], [[(11, 0)], [(4, 0)], [(5, 0)]], .none⟩,  -- 272: poly, object 33: pd Stop
   ⟨.inlet, [[(328, 0)]], .none⟩,  -- 273: poly, [pd Stop], object 0: inlet
   ⟨.graph [275], [[(354, 0)]], .none⟩,  -- 274: poly, [pd Stop], object 1: pd count
   ⟨.inlet, [[(300, 0)]], .none⟩,  -- 275: poly, [pd Stop], [pd count], object 0: inlet
   ⟨.seq [some .float, some .float], [[(277, 0)], [(282, 0)]], .none⟩,  -- 276: poly, [pd Stop], [pd count], object 1: t f f
   ⟨.graph [278, 279], [[(314, 0)]], .none⟩,  -- 277: poly, [pd Stop], [pd count], object 2: spigot 0
   ⟨.inlet, [[(281, 0)]], .none⟩,  -- 278: spigot, object 0: inlet
   ⟨.inlet, [[(281, 1)]], .none⟩,  -- 279: spigot, object 1: inlet
   ⟨.outlet 277 0, [], .none⟩,  -- 280: spigot, object 2: outlet
   ⟨.obj, [[], [(280, 0)]], .ite 0⟩,  -- 281: spigot, object 4: pd @hv_obj if \$1
   ⟨.obj, [[(277, 1)]], .bin .lt 0⟩,  -- 282: poly, [pd Stop], [pd count], object 3: <
   ⟨.seq [some .float, some .float], [[(290, 0)], [(282, 1)]], .none⟩,  -- 283: poly, [pd Stop], [pd count], object 4: t f f
   ⟨.graph [287, 288], [[(276, 0)]], .none⟩,  -- 284: poly, [pd Stop], [pd count], object 5: f
   ⟨.obj, [[(286, 0)]], .var (.float 0)⟩,  -- 285: f, object 1: pd @hv_obj __var \$1
   ⟨.outlet 284 0, [], .none⟩,  -- 286: f, object 2: outlet
   ⟨.inlet, [[(285, 0)]], .none⟩]  -- 287: f, object 3: inlet -->

/-- the objects of hvcc/interpreters/pd2hv/libs/pd/poly.pd: kind, connections of each outlet, class (part 18) -/
def b18 (a1 : ℚ) (a2 : ℚ) : List Node :=
  [⟨.inlet, [[(285, 1)]], .none⟩,  -- 288: f, object 4: inlet -->
   ⟨.obj, [[(284, 0)]], .bink .add 1⟩,  -- 289: poly, [pd Stop], [pd count], object 6: + 1
   ⟨.obj, [[(284, 0)]], .msg [.lit (.float 0)]⟩,  -- 290: poly, [pd Stop], [pd count], object 7: 0
   ⟨.outlet 274 0, [], .none⟩,  -- 291: poly, [pd Stop], [pd count], object 8: outlet
   ⟨.graph [293, 294], [[], [(283, 0)]], .none⟩,  -- 292: poly, [pd Stop], [pd count], object 9: moses 1
   ⟨.inlet, [[(298, 0)]], .none⟩,  -- 293: moses, object 0: inlet
   ⟨.inlet, [[(297, 1)]], .none⟩,  -- 294: moses, object 1: inlet
   ⟨.outlet 292 0, [], .none⟩,  -- 295: moses, object 2: outlet
   ⟨.outlet 292 1, [], .none⟩,  -- 296: moses, object 3: outlet
   ⟨.obj, [[(299, 1)]], .bin .ge 1⟩,  -- 297: moses, object 4: >= \$1
   ⟨.seq [none, none], [[(299, 0)], [(297, 0)]], .none⟩,  -- 298: moses, object 6: t a a
   ⟨.obj, [[(295, 0)], [(296, 0)]], .ite 0⟩,  -- 299: moses, object 7: pd @hv_obj __if
   ⟨.graph [301, 307], [[(292, 0)]], .none⟩,  -- 300: poly, [pd Stop], [pd count], object 10: int
   ⟨.inlet, [[(302, 0)]], .none⟩,  -- 301: int, object 0: inlet
   ⟨.graph [305, 306], [[(313, 0)]], .none⟩,  -- 302: int, object 1: f \$1
   ⟨.obj, [[(304, 0)]], .var (.float 0)⟩]  -- 303: f, object 1: pd @hv_obj __var \$1

/-- the objects of hvcc/interpreters/pd2hv/libs/pd/poly.pd: kind, connections of each outlet, class (part 19) -/
def b19 (a1 : ℚ) (a2 : ℚ) : List Node :=
  [⟨.outlet 302 0, [], .none⟩,  -- 304: f, object 2: outlet
   ⟨.inlet, [[(303, 0)]], .none⟩,  -- 305: f, object 3: inlet -->
   ⟨.inlet, [[(303, 1)]], .none⟩,  -- 306: f, object 4: inlet -->
   ⟨.inlet, [[(302, 1)]], .none⟩,  -- 307: int, object 2: inlet
   ⟨.outlet 300 0, [], .none⟩,  -- 308: int, object 3: outlet
   ⟨.obj, [[(312, 0)], [(311, 0)]], .ite 0⟩,  -- 309: int, object 4: pd @hv_obj if \$1
   ⟨.obj, [[(309, 1)]], .bink .gt 0⟩,  -- 310: int, object 5: > 0
   ⟨.obj, [[(308, 0)]], .un .floor⟩,  -- 311: int, object 6: pd @hv_obj __floor
   ⟨.obj, [[(308, 0)]], .un .ceil⟩,  -- 312: int, object 7: pd @hv_obj __ceil
   ⟨.seq [none, none], [[(309, 0)], [(310, 0)]], .none⟩,  -- 313: int, object 9: t a a
   ⟨.seq [some .float, some .float], [[(289, 0)], [(291, 0)]], .none⟩,  -- 314: poly, [pd Stop], [pd count], object 11: t f f
   ⟨.obj, [[(274, 0)]], .var (.float a1)⟩,  -- 315: poly, [pd Stop], object 2: \$1
   ⟨.graph [317, 318], [[]], .none⟩,  -- 316: poly, [pd Stop], object 3: tabwrite \$0-used
   ⟨.inlet, [[(321, 0)]], .none⟩,  -- 317: tabwrite, object 0: inlet -->
   ⟨.inlet, [[(320, 1)]], .none⟩,  -- 318: tabwrite, object 1: inlet -->
   ⟨.outlet 316 0, [], .none⟩]  -- 319: tabwrite, object 2: outlet -->

/-- the objects of hvcc/interpreters/pd2hv/libs/pd/poly.pd: kind, connections of each outlet, class (part 20) -/
def b20 (a1 : ℚ) (a2 : ℚ) : List Node :=
  [⟨.obj, [[(319, 0)]], .tabwrite 1⟩,  -- 320: tabwrite, object 3: pd @hv_obj __tabwrite \$1
   ⟨.graph [322, 323], [[(320, 2)], [(320, 0)]], .none⟩,  -- 321: tabwrite, object 4: route set
   ⟨.inlet, [[(324, 0)]], .none⟩,  -- 322: tabwrite, object 4: route set
   ⟨.inlet, [[]], .none⟩,  -- 323: tabwrite, object 4: route set
   ⟨.obj, [[(326, 0)], [(325, 0)]], .switch [(.sym "set")]⟩,  -- 324: tabwrite, object 4: route set
   ⟨.outlet 321 1, [], .none⟩,  -- 325: tabwrite, object 4: route set
   ⟨.obj, [[(327, 0)], [(327, 0)]], .slice 1 0⟩,  -- 326: tabwrite, object 4: route set
   ⟨.outlet 321 0, [], .none⟩,  -- 327: tabwrite, object 4: route set
   ⟨.seq [some .bang, some .bang], [[(315, 0)], [(329, 0)]], .none⟩,  -- 328: poly, [pd Stop], object 4: t b b
   ⟨.obj, [[(330, 0)]], .msg [.lit (.float 0)]⟩,  -- 329: poly, [pd Stop], object 5: 0
   ⟨.send 3, [[]], .none⟩,  -- 330: poly, [pd Stop], object 6: s \$0-voiceId++
   ⟨.graph [332], [[(353, 0)]], .none⟩,  -- 331: poly, [pd Stop], object 7: tabread \$0-used
   ⟨.inlet, [[(335, 0)]], .none⟩,  -- 332: tabread, object 0: inlet -->
   ⟨.outlet 331 0, [], .none⟩,  -- 333: tabread, object 1: outlet -->
   ⟨.obj, [[(333, 0)]], .tabread 1⟩,  -- 334: tabread, object 2: pd @hv_obj __tabread \$1
   ⟨.graph [336, 337], [[(334, 1)], [(344, 0)]], .none⟩]  -- 335: tabread, object 3: route set

/-- the objects of hvcc/interpreters/pd2hv/libs/pd/poly.pd: kind, connections of each outlet, class (part 21) -/
def b21 (a1 : ℚ) (a2 : ℚ) : List Node :=
  [⟨.inlet, [[(338, 0)]], .none⟩,  -- 336: tabread, object 3: route set
   ⟨.inlet, [[]], .none⟩,  -- 337: tabread, object 3: route set
   ⟨.obj, [[(340, 0)], [(339, 0)]], .switch [(.sym "set")]⟩,  -- 338: tabread, object 3: route set
   ⟨.outlet 335 1, [], .none⟩,  -- 339: tabread, object 3: route set
   ⟨.obj, [[(341, 0)], [(341, 0)]], .slice 1 0⟩,  -- 340: tabread, object 3: route set
   ⟨.outlet 335 0, [], .none⟩,  -- 341: tabread, object 3: route set
   ⟨.obj, [[(352, 0)]], .system⟩,  -- 342: tabread, object 5: pd @hv_obj system
   ⟨.obj, [[(350, 0)]], .bink .max 0⟩,  -- 343: tabread, object 6: max 0
   ⟨.seq [some .float, some .bang], [[(343, 0)], [(345, 0)]], .none⟩,  -- 344: tabread, object 7: t f b
   ⟨.graph [346, 349], [[(351, 0)]], .none⟩,  -- 345: tabread, object 8: symbol \$1
   ⟨.inlet, [[(348, 0)]], .none⟩,  -- 346: symbol, object 0: inlet
   ⟨.outlet 345 0, [], .none⟩,  -- 347: symbol, object 1: outlet
   ⟨.obj, [[(347, 0)]], .var (.sym "1-used")⟩,  -- 348: symbol, object 2: pd @hv_obj __var \$1
   ⟨.inlet, [[(348, 1)]], .none⟩,  -- 349: symbol, object 3: inlet
   ⟨.obj, [[(334, 0)]], .bin .min 0⟩,  -- 350: tabread, object 9: min 0
   ⟨.obj, [[(342, 0)]], .msg [.lit (.sym "table"), .arg 0, .lit (.sym "length")]⟩]  -- 351: tabread, object 10: table \$1 length

/-- the objects of hvcc/interpreters/pd2hv/libs/pd/poly.pd: kind, connections of each outlet, class (part 22) -/
def b22 (a1 : ℚ) (a2 : ℚ) : List Node :=
  [⟨.obj, [[(350, 1)]], .bink .sub 1⟩,  -- 352: tabread, object 11: - 1
   ⟨.obj, [[(355, 1)]], .bink .neq 0⟩,  -- 353: poly, [pd Stop], object 8: != 0
   ⟨.seq [some .float, some .float], [[(355, 0)], [(331, 0)]], .none⟩,  -- 354: poly, [pd Stop], object 9: t f f
   ⟨.graph [356, 357], [[(386, 0)]], .none⟩,  -- 355: poly, [pd Stop], object 10: spigot 0
   ⟨.inlet, [[(359, 0)]], .none⟩,  -- 356: spigot, object 0: inlet
   ⟨.inlet, [[(359, 1)]], .none⟩,  -- 357: spigot, object 1: inlet
   ⟨.outlet 355 0, [], .none⟩,  -- 358: spigot, object 2: outlet
   ⟨.obj, [[], [(358, 0)]], .ite 0⟩,  -- 359: spigot, object 4: pd @hv_obj if \$1
   ⟨.outlet 272 0, [], .none⟩,  -- 360: poly, [pd Stop], object 11: outlet id
   ⟨.outlet 272 1, [], .none⟩,  -- 361: poly, [pd Stop], object 12: outlet pitch
   ⟨.outlet 272 2, [], .none⟩,  -- 362: poly, [pd Stop], object 13: outlet velocity
   ⟨.obj, [[(362, 0)]], .msg [.lit (.float 0)]⟩,  -- 363: poly, [pd Stop], object 14: 0
   ⟨.graph [365], [[(361, 0)]], .none⟩,  -- 364: poly, [pd Stop], object 15: tabread \$0-pitches
   ⟨.inlet, [[(368, 0)]], .none⟩,  -- 365: tabread, object 0: inlet -->
   ⟨.outlet 364 0, [], .none⟩,  -- 366: tabread, object 1: outlet -->
   ⟨.obj, [[(366, 0)]], .tabread 0⟩]  -- 367: tabread, object 2: pd @hv_obj __tabread \$1

/-- the objects of hvcc/interpreters/pd2hv/libs/pd/poly.pd: kind, connections of each outlet, class (part 23) -/
def b23 (a1 : ℚ) (a2 : ℚ) : List Node :=
  [⟨.graph [369, 370], [[(367, 1)], [(377, 0)]], .none⟩,  -- 368: tabread, object 3: route set
   ⟨.inlet, [[(371, 0)]], .none⟩,  -- 369: tabread, object 3: route set
   ⟨.inlet, [[]], .none⟩,  -- 370: tabread, object 3: route set
   ⟨.obj, [[(373, 0)], [(372, 0)]], .switch [(.sym "set")]⟩,  -- 371: tabread, object 3: route set
   ⟨.outlet 368 1, [], .none⟩,  -- 372: tabread, object 3: route set
   ⟨.obj, [[(374, 0)], [(374, 0)]], .slice 1 0⟩,  -- 373: tabread, object 3: route set
   ⟨.outlet 368 0, [], .none⟩,  -- 374: tabread, object 3: route set
   ⟨.obj, [[(385, 0)]], .system⟩,  -- 375: tabread, object 5: pd @hv_obj system
   ⟨.obj, [[(383, 0)]], .bink .max 0⟩,  -- 376: tabread, object 6: max 0
   ⟨.seq [some .float, some .bang], [[(376, 0)], [(378, 0)]], .none⟩,  -- 377: tabread, object 7: t f b
   ⟨.graph [379, 382], [[(384, 0)]], .none⟩,  -- 378: tabread, object 8: symbol \$1
   ⟨.inlet, [[(381, 0)]], .none⟩,  -- 379: symbol, object 0: inlet
   ⟨.outlet 378 0, [], .none⟩,  -- 380: symbol, object 1: outlet
   ⟨.obj, [[(380, 0)]], .var (.sym "1-pitches")⟩,  -- 381: symbol, object 2: pd @hv_obj __var \$1
   ⟨.inlet, [[(381, 1)]], .none⟩,  -- 382: symbol, object 3: inlet
   ⟨.obj, [[(367, 0)]], .bin .min 0⟩]  -- 383: tabread, object 9: min 0

/-- the objects of hvcc/interpreters/pd2hv/libs/pd/poly.pd: kind, connections of each outlet, class (part 24) -/
def b24 (a1 : ℚ) (a2 : ℚ) : List Node :=
  [⟨.obj, [[(375, 0)]], .msg [.lit (.sym "table"), .arg 0, .lit (.sym "length")]⟩,  -- 384: tabread, object 10: table \$1 length
   ⟨.obj, [[(383, 1)]], .bink .sub 1⟩,  -- 385: tabread, object 11: - 1
   ⟨.seq [some .bang, some .float, some .float, some .float, some .bang], [[(389, 0)], [(387, 0)], [(360, 0)], [(364, 0)], [(363, 0)]], .none⟩,  -- 386: poly, [pd Stop], object 16: t b f f f b
   ⟨.seq [some .bang, some .float], [[(388, 0)], [(316, 1)]], .none⟩,  -- 387: poly, [pd Stop], object 17: t b f
   ⟨.obj, [[(316, 0)]], .msg [.lit (.float 0)]⟩,  -- 388: poly, [pd Stop], object 18: 0
   ⟨.send 3, [[]], .none⟩,  -- 389: poly, [pd Stop], object 19: s \$0-voiceId++
   ⟨.graph [391], [], .none⟩,  -- 390: poly, object 34: pd Clear
   ⟨.inlet, [[(459, 0)]], .none⟩,  -- 391: poly, [pd Clear], object 0: inlet
   ⟨.graph [393], [[(463, 0)]], .none⟩,  -- 392: poly, [pd Clear], object 1: pd count
   ⟨.inlet, [[(418, 0)]], .none⟩,  -- 393: poly, [pd Clear], [pd count], object 0: inlet
   ⟨.seq [some .float, some .float], [[(395, 0)], [(400, 0)]], .none⟩,  -- 394: poly, [pd Clear], [pd count], object 1: t f f
   ⟨.graph [396, 397], [[(432, 0)]], .none⟩,  -- 395: poly, [pd Clear], [pd count], object 2: spigot 0
   ⟨.inlet, [[(399, 0)]], .none⟩,  -- 396: spigot, object 0: inlet
   ⟨.inlet, [[(399, 1)]], .none⟩,  -- 397: spigot, object 1: inlet
   ⟨.outlet 395 0, [], .none⟩,  -- 398: spigot, object 2: outlet
   ⟨.obj, [[], [(398, 0)]], .ite 0⟩]  -- 399: spigot, object 4: pd @hv_obj if \$1

/-- the objects of hvcc/interpreters/pd2hv/libs/pd/poly.pd: kind, connections of each outlet, class (part 25) -/
def b25 (a1 : ℚ) (a2 : ℚ) : List Node :=
  [⟨.obj, [[(395, 1)]], .bin .lt 0⟩,  -- 400: poly, [pd Clear], [pd count], object 3: <
   ⟨.seq [some .float, some .float], [[(408, 0)], [(400, 1)]], .none⟩,  -- 401: poly, [pd Clear], [pd count], object 4: t f f
   ⟨.graph [405, 406], [[(394, 0)]], .none⟩,  -- 402: poly, [pd Clear], [pd count], object 5: f
   ⟨.obj, [[(404, 0)]], .var (.float 0)⟩,  -- 403: f, object 1: pd @hv_obj __var \$1
   ⟨.outlet 402 0, [], .none⟩,  -- 404: f, object 2: outlet
   ⟨.inlet, [[(403, 0)]], .none⟩,  -- 405: f, object 3: inlet -->
   ⟨.inlet, [[(403, 1)]], .none⟩,  -- 406: f, object 4: inlet -->
   ⟨.obj, [[(402, 0)]], .bink .add 1⟩,  -- 407: poly, [pd Clear], [pd count], object 6: + 1
   ⟨.obj, [[(402, 0)]], .msg [.lit (.float 0)]⟩,  -- 408: poly, [pd Clear], [pd count], object 7: 0
   ⟨.outlet 392 0, [], .none⟩,  -- 409: poly, [pd Clear], [pd count], object 8: outlet
   ⟨.graph [411, 412], [[], [(401, 0)]], .none⟩,  -- 410: poly, [pd Clear], [pd count], object 9: moses 1
   ⟨.inlet, [[(416, 0)]], .none⟩,  -- 411: moses, object 0: inlet
   ⟨.inlet, [[(415, 1)]], .none⟩,  -- 412: moses, object 1: inlet
   ⟨.outlet 410 0, [], .none⟩,  -- 413: moses, object 2: outlet
   ⟨.outlet 410 1, [], .none⟩,  -- 414: moses, object 3: outlet
   ⟨.obj, [[(417, 1)]], .bin .ge 1⟩]  -- 415: moses, object 4: >= \$1

/-- the objects of hvcc/interpreters/pd2hv/libs/pd/poly.pd: kind, connections of each outlet, class (part 26) -/
def b26 (a1 : ℚ) (a2 : ℚ) : List Node :=
  [⟨.seq [none, none], [[(417, 0)], [(415, 0)]], .none⟩,  -- 416: moses, object 6: t a a
   ⟨.obj, [[(413, 0)], [(414, 0)]], .ite 0⟩,  -- 417: moses, object 7: pd @hv_obj __if
   ⟨.graph [419, 425], [[(410, 0)]], .none⟩,  -- 418: poly, [pd Clear], [pd count], object 10: int
   ⟨.inlet, [[(420, 0)]], .none⟩,  -- 419: int, object 0: inlet
   ⟨.graph [423, 424], [[(431, 0)]], .none⟩,  -- 420: int, object 1: f \$1
   ⟨.obj, [[(422, 0)]], .var (.float 0)⟩,  -- 421: f, object 1: pd @hv_obj __var \$1
   ⟨.outlet 420 0, [], .none⟩,  -- 422: f, object 2: outlet
   ⟨.inlet, [[(421, 0)]], .none⟩,  -- 423: f, object 3: inlet -->
   ⟨.inlet, [[(421, 1)]], .none⟩,  -- 424: f, object 4: inlet -->
   ⟨.inlet, [[(420, 1)]], .none⟩,  -- 425: int, object 2: inlet
   ⟨.outlet 418 0, [], .none⟩,  -- 426: int, object 3: outlet
   ⟨.obj, [[(430, 0)], [(429, 0)]], .ite 0⟩,  -- 427: int, object 4: pd @hv_obj if \$1
   ⟨.obj, [[(427, 1)]], .bink .gt 0⟩,  -- 428: int, object 5: > 0
   ⟨.obj, [[(426, 0)]], .un .floor⟩,  -- 429: int, object 6: pd @hv_obj __floor
   ⟨.obj, [[(426, 0)]], .un .ceil⟩,  -- 430: int, object 7: pd @hv_obj __ceil
   ⟨.seq [none, none], [[(427, 0)], [(428, 0)]], .none⟩]  -- 431: int, object 9: t a a

/-- the objects of hvcc/interpreters/pd2hv/libs/pd/poly.pd: kind, connections of each outlet, class (part 27) -/
def b27 (a1 : ℚ) (a2 : ℚ) : List Node :=
  [⟨.seq [some .float, some .float], [[(407, 0)], [(409, 0)]], .none⟩,  -- 432: poly, [pd Clear], [pd count], object 11: t f f
   ⟨.obj, [[(392, 0)]], .var (.float a1)⟩,  -- 433: poly, [pd Clear], object 2: \$1
   ⟨.graph [435, 436], [[]], .none⟩,  -- 434: poly, [pd Clear], object 3: tabwrite \$0-used
   ⟨.inlet, [[(439, 0)]], .none⟩,  -- 435: tabwrite, object 0: inlet -->
   ⟨.inlet, [[(438, 1)]], .none⟩,  -- 436: tabwrite, object 1: inlet -->
   ⟨.outlet 434 0, [], .none⟩,  -- 437: tabwrite, object 2: outlet -->
   ⟨.obj, [[(437, 0)]], .tabwrite 1⟩,  -- 438: tabwrite, object 3: pd @hv_obj __tabwrite \$1
   ⟨.graph [440, 441], [[(438, 2)], [(438, 0)]], .none⟩,  -- 439: tabwrite, object 4: route set
   ⟨.inlet, [[(442, 0)]], .none⟩,  -- 440: tabwrite, object 4: route set
   ⟨.inlet, [[]], .none⟩,  -- 441: tabwrite, object 4: route set
   ⟨.obj, [[(444, 0)], [(443, 0)]], .switch [(.sym "set")]⟩,  -- 442: tabwrite, object 4: route set
   ⟨.outlet 439 1, [], .none⟩,  -- 443: tabwrite, object 4: route set
   ⟨.obj, [[(445, 0)], [(445, 0)]], .slice 1 0⟩,  -- 444: tabwrite, object 4: route set
   ⟨.outlet 439 0, [], .none⟩,  -- 445: tabwrite, object 4: route set
   ⟨.graph [447, 448], [[]], .none⟩,  -- 446: poly, [pd Clear], object 4: tabwrite \$0-ids
   ⟨.inlet, [[(451, 0)]], .none⟩]  -- 447: tabwrite, object 0: inlet -->

/-- the objects of hvcc/interpreters/pd2hv/libs/pd/poly.pd: kind, connections of each outlet, class (part 28) -/
def b28 (a1 : ℚ) (a2 : ℚ) : List Node :=
  [⟨.inlet, [[(450, 1)]], .none⟩,  -- 448: tabwrite, object 1: inlet -->
   ⟨.outlet 446 0, [], .none⟩,  -- 449: tabwrite, object 2: outlet -->
   ⟨.obj, [[(449, 0)]], .tabwrite 2⟩,  -- 450: tabwrite, object 3: pd @hv_obj __tabwrite \$1
   ⟨.graph [452, 453], [[(450, 2)], [(450, 0)]], .none⟩,  -- 451: tabwrite, object 4: route set
   ⟨.inlet, [[(454, 0)]], .none⟩,  -- 452: tabwrite, object 4: route set
   ⟨.inlet, [[]], .none⟩,  -- 453: tabwrite, object 4: route set
   ⟨.obj, [[(456, 0)], [(455, 0)]], .switch [(.sym "set")]⟩,  -- 454: tabwrite, object 4: route set
   ⟨.outlet 451 1, [], .none⟩,  -- 455: tabwrite, object 4: route set
   ⟨.obj, [[(457, 0)], [(457, 0)]], .slice 1 0⟩,  -- 456: tabwrite, object 4: route set
   ⟨.outlet 451 0, [], .none⟩,  -- 457: tabwrite, object 4: route set
   ⟨.obj, [[(462, 0)]], .msg [.lit (.float 0)]⟩,  -- 458: poly, [pd Clear], object 5: 0
   ⟨.seq [some .bang, some .bang], [[(433, 0)], [(460, 0)]], .none⟩,  -- 459: poly, [pd Clear], object 6: t b b
   ⟨.obj, [[(461, 0)]], .msg [.lit (.float 0)]⟩,  -- 460: poly, [pd Clear], object 7: 0
   ⟨.send 3, [[]], .none⟩,  -- 461: poly, [pd Clear], object 8: s \$0-voiceId++
   ⟨.seq [none, none, none], [[(434, 0)], [(446, 0)], [(464, 0)]], .none⟩,  -- 462: poly, [pd Clear], object 9: t a a a
   ⟨.seq [some .bang, none, none, none], [[(458, 0)], [(434, 1)], [(446, 1)], [(464, 1)]], .none⟩]  -- 463: poly, [pd Clear], object 10: t b a a a

/-- the objects of hvcc/interpreters/pd2hv/libs/pd/poly.pd: kind, connections of each outlet, class (part 29) -/
def b29 (a1 : ℚ) (a2 : ℚ) : List Node :=
  [⟨.graph [465, 466], [[]], .none⟩,  -- 464: poly, [pd Clear], object 11: tabwrite \$0-pitches
   ⟨.inlet, [[(469, 0)]], .none⟩,  -- 465: tabwrite, object 0: inlet -->
   ⟨.inlet, [[(468, 1)]], .none⟩,  -- 466: tabwrite, object 1: inlet -->
   ⟨.outlet 464 0, [], .none⟩,  -- 467: tabwrite, object 2: outlet -->
   ⟨.obj, [[(467, 0)]], .tabwrite 0⟩,  -- 468: tabwrite, object 3: pd @hv_obj __tabwrite \$1
   ⟨.graph [470, 471], [[(468, 2)], [(468, 0)]], .none⟩,  -- 469: tabwrite, object 4: route set
   ⟨.inlet, [[(472, 0)]], .none⟩,  -- 470: tabwrite, object 4: route set
   ⟨.inlet, [[]], .none⟩,  -- 471: tabwrite, object 4: route set
   ⟨.obj, [[(474, 0)], [(473, 0)]], .switch [(.sym "set")]⟩,  -- 472: tabwrite, object 4: route set
   ⟨.outlet 469 1, [], .none⟩,  -- 473: tabwrite, object 4: route set
   ⟨.obj, [[(475, 0)], [(475, 0)]], .slice 1 0⟩,  -- 474: tabwrite, object 4: route set
   ⟨.outlet 469 0, [], .none⟩,  -- 475: tabwrite, object 4: route set
   ⟨.graph [809, 810], [[(11, 0)], [(4, 0)], [(5, 0)]], .none⟩,  -- 476: poly, object 35: pd NoteOn
   ⟨.graph [478], [[(533, 0)]], .none⟩,  -- 477: poly, [pd NoteOn], object 0: pd count
   ⟨.inlet, [[(503, 0)]], .none⟩,  -- 478: poly, [pd NoteOn], [pd count], object 0: inlet
   ⟨.seq [some .float, some .float], [[(480, 0)], [(485, 0)]], .none⟩]  -- 479: poly, [pd NoteOn], [pd count], object 1: t f f

/-- the objects of hvcc/interpreters/pd2hv/libs/pd/poly.pd: kind, connections of each outlet, class (part 30) -/
def b30 (a1 : ℚ) (a2 : ℚ) : List Node :=
  [⟨.graph [481, 482], [[(517, 0)]], .none⟩,  -- 480: poly, [pd NoteOn], [pd count], object 2: spigot 0
   ⟨.inlet, [[(484, 0)]], .none⟩,  -- 481: spigot, object 0: inlet
   ⟨.inlet, [[(484, 1)]], .none⟩,  -- 482: spigot, object 1: inlet
   ⟨.outlet 480 0, [], .none⟩,  -- 483: spigot, object 2: outlet
   ⟨.obj, [[], [(483, 0)]], .ite 0⟩,  -- 484: spigot, object 4: pd @hv_obj if \$1
   ⟨.obj, [[(480, 1)]], .bin .lt 0⟩,  -- 485: poly, [pd NoteOn], [pd count], object 3: <
   ⟨.seq [some .float, some .float], [[(493, 0)], [(485, 1)]], .none⟩,  -- 486: poly, [pd NoteOn], [pd count], object 4: t f f
   ⟨.graph [490, 491], [[(479, 0)]], .none⟩,  -- 487: poly, [pd NoteOn], [pd count], object 5: f
   ⟨.obj, [[(489, 0)]], .var (.float 0)⟩,  -- 488: f, object 1: pd @hv_obj __var \$1
   ⟨.outlet 487 0, [], .none⟩,  -- 489: f, object 2: outlet
   ⟨.inlet, [[(488, 0)]], .none⟩,  -- 490: f, object 3: inlet -->
   ⟨.inlet, [[(488, 1)]], .none⟩,  -- 491: f, object 4: inlet -->
   ⟨.obj, [[(487, 0)]], .bink .add 1⟩,  -- 492: poly, [pd NoteOn], [pd count], object 6: + 1
   ⟨.obj, [[(487, 0)]], .msg [.lit (.float 0)]⟩,  -- 493: poly, [pd NoteOn], [pd count], object 7: 0
   ⟨.outlet 477 0, [], .none⟩,  -- 494: poly, [pd NoteOn], [pd count], object 8: outlet
   ⟨.graph [496, 497], [[], [(486, 0)]], .none⟩]  -- 495: poly, [pd NoteOn], [pd count], object 9: moses 1

/-- the objects of hvcc/interpreters/pd2hv/libs/pd/poly.pd: kind, connections of each outlet, class (part 31) -/
def b31 (a1 : ℚ) (a2 : ℚ) : List Node :=
  [⟨.inlet, [[(501, 0)]], .none⟩,  -- 496: moses, object 0: inlet
   ⟨.inlet, [[(500, 1)]], .none⟩,  -- 497: moses, object 1: inlet
   ⟨.outlet 495 0, [], .none⟩,  -- 498: moses, object 2: outlet
   ⟨.outlet 495 1, [], .none⟩,  -- 499: moses, object 3: outlet
   ⟨.obj, [[(502, 1)]], .bin .ge 1⟩,  -- 500: moses, object 4: >= \$1
   ⟨.seq [none, none], [[(502, 0)], [(500, 0)]], .none⟩,  -- 501: moses, object 6: t a a
   ⟨.obj, [[(498, 0)], [(499, 0)]], .ite 0⟩,  -- 502: moses, object 7: pd @hv_obj __if
   ⟨.graph [504, 510], [[(495, 0)]], .none⟩,  -- 503: poly, [pd NoteOn], [pd count], object 10: int
   ⟨.inlet, [[(505, 0)]], .none⟩,  -- 504: int, object 0: inlet
   ⟨.graph [508, 509], [[(516, 0)]], .none⟩,  -- 505: int, object 1: f \$1
   ⟨.obj, [[(507, 0)]], .var (.float 0)⟩,  -- 506: f, object 1: pd @hv_obj __var \$1
   ⟨.outlet 505 0, [], .none⟩,  -- 507: f, object 2: outlet
   ⟨.inlet, [[(506, 0)]], .none⟩,  -- 508: f, object 3: inlet -->
   ⟨.inlet, [[(506, 1)]], .none⟩,  -- 509: f, object 4: inlet -->
   ⟨.inlet, [[(505, 1)]], .none⟩,  -- 510: int, object 2: inlet
   ⟨.outlet 503 0, [], .none⟩]  -- 511: int, object 3: outlet

/-- the objects of hvcc/interpreters/pd2hv/libs/pd/poly.pd: kind, connections of each outlet, class (part 32) -/
def b32 (a1 : ℚ) (a2 : ℚ) : List Node :=
  [⟨.obj, [[(515, 0)], [(514, 0)]], .ite 0⟩,  -- 512: int, object 4: pd @hv_obj if \$1
   ⟨.obj, [[(512, 1)]], .bink .gt 0⟩,  -- 513: int, object 5: > 0
   ⟨.obj, [[(511, 0)]], .un .floor⟩,  -- 514: int, object 6: pd @hv_obj __floor
   ⟨.obj, [[(511, 0)]], .un .ceil⟩,  -- 515: int, object 7: pd @hv_obj __ceil
   ⟨.seq [none, none], [[(512, 0)], [(513, 0)]], .none⟩,  -- 516: int, object 9: t a a
   ⟨.seq [some .float, some .float], [[(492, 0)], [(494, 0)]], .none⟩,  -- 517: poly, [pd NoteOn], [pd count], object 11: t f f
   ⟨.obj, [[(477, 0)]], .var (.float a1)⟩,  -- 518: poly, [pd NoteOn], object 1: \$1
   ⟨.obj, [[(543, 0)]], .bin .and 0⟩,  -- 519: poly, [pd NoteOn], object 2: &&
   ⟨.obj, [[(541, 1)]], .bin .lt 0⟩,  -- 520: poly, [pd NoteOn], object 3: <
   ⟨.graph [522, 523], [[(579, 0)], []], .none⟩,  -- 521: poly, [pd NoteOn], object 4: sel 1
   ⟨.inlet, [[(524, 0)]], .none⟩,  -- 522: poly, [pd NoteOn], object 4: sel 1
   ⟨.inlet, [[]], .none⟩,  -- 523: poly, [pd NoteOn], object 4: sel 1
   ⟨.obj, [[(526, 0)], [(525, 0)]], .switch [(.float 1)]⟩,  -- 524: poly, [pd NoteOn], object 4: sel 1
   ⟨.outlet 521 1, [], .none⟩,  -- 525: poly, [pd NoteOn], object 4: sel 1
   ⟨.cast .bang, [[(527, 0)]], .none⟩,  -- 526: poly, [pd NoteOn], object 4: sel 1
   ⟨.outlet 521 0, [], .none⟩]  -- 527: poly, [pd NoteOn], object 4: sel 1

/-- the objects of hvcc/interpreters/pd2hv/libs/pd/poly.pd: kind, connections of each outlet, class (part 33) -/
def b33 (a1 : ℚ) (a2 : ℚ) : List Node :=
  [⟨.graph [531, 532], [[(534, 0)]], .none⟩,  -- 528: poly, [pd NoteOn], object 5: f
   ⟨.obj, [[(530, 0)]], .var (.float 0)⟩,  -- 529: f, object 1: pd @hv_obj __var \$1
   ⟨.outlet 528 0, [], .none⟩,  -- 530: f, object 2: outlet
   ⟨.inlet, [[(529, 0)]], .none⟩,  -- 531: f, object 3: inlet -->
   ⟨.inlet, [[(529, 1)]], .none⟩,  -- 532: f, object 4: inlet -->
   ⟨.seq [some .float, some .float, some .float, some .float], [[], [(647, 0)], [(669, 0)], [(528, 1), (545, 1)]], .none⟩,  -- 533: poly, [pd NoteOn], object 6: t f f f f
   ⟨.send 5, [[]], .none⟩,  -- 534: poly, [pd NoteOn], object 7: s \$0-indexOn
   ⟨.seq [some .float, some .float], [[(542, 0)], [(519, 0)]], .none⟩,  -- 535: poly, [pd NoteOn], object 8: t f f
   ⟨.graph [537, 538], [[(554, 0)]], .none⟩,  -- 536: poly, [pd NoteOn], object 9: spigot 0
   ⟨.inlet, [[(540, 0)]], .none⟩,  -- 537: spigot, object 0: inlet
   ⟨.inlet, [[(540, 1)]], .none⟩,  -- 538: spigot, object 1: inlet
   ⟨.outlet 536 0, [], .none⟩,  -- 539: spigot, object 2: outlet
   ⟨.obj, [[], [(539, 0)]], .ite 0⟩,  -- 540: spigot, object 4: pd @hv_obj if \$1
   ⟨.obj, [[(536, 0)]], .bin .and 0⟩,  -- 541: poly, [pd NoteOn], object 10: &&
   ⟨.obj, [[(541, 0)]], .bink .eq 0⟩,  -- 542: poly, [pd NoteOn], object 11: == 0
   ⟨.seq [some .float, some .float], [[(544, 0)], [(521, 0)]], .none⟩]  -- 543: poly, [pd NoteOn], object 12: t f f

/-- the objects of hvcc/interpreters/pd2hv/libs/pd/poly.pd: kind, connections of each outlet, class (part 34) -/
def b34 (a1 : ℚ) (a2 : ℚ) : List Node :=
  [⟨.obj, [[(536, 1)]], .bink .eq 0⟩,  -- 544: poly, [pd NoteOn], object 13: == 0
   ⟨.graph [548, 549], [[(550, 0)]], .none⟩,  -- 545: poly, [pd NoteOn], object 14: f
   ⟨.obj, [[(547, 0)]], .var (.float 0)⟩,  -- 546: f, object 1: pd @hv_obj __var \$1
   ⟨.outlet 545 0, [], .none⟩,  -- 547: f, object 2: outlet
   ⟨.inlet, [[(546, 0)]], .none⟩,  -- 548: f, object 3: inlet -->
   ⟨.inlet, [[(546, 1)]], .none⟩,  -- 549: f, object 4: inlet -->
   ⟨.send 6, [[]], .none⟩,  -- 550: poly, [pd NoteOn], object 15: s \$0-indexOff
   ⟨.send 5, [[]], .none⟩,  -- 551: poly, [pd NoteOn], object 16: s \$0-indexOn
   ⟨.send 6, [[]], .none⟩,  -- 552: poly, [pd NoteOn], object 17: s \$0-indexOff
   ⟨.seq [none, some .bang, some .bang, some .bang], [[(598, 0)], [(518, 0)], [(796, 0)], [(580, 0)]], .none⟩,  -- 553: poly, [pd NoteOn], object 18: t a b b b
   ⟨.graph [555, 556], [[(575, 0)], []], .none⟩,  -- 554: poly, [pd NoteOn], object 19: sel 1
   ⟨.inlet, [[(557, 0)]], .none⟩,  -- 555: poly, [pd NoteOn], object 19: sel 1
   ⟨.inlet, [[]], .none⟩,  -- 556: poly, [pd NoteOn], object 19: sel 1
   ⟨.obj, [[(559, 0)], [(558, 0)]], .switch [(.float 1)]⟩,  -- 557: poly, [pd NoteOn], object 19: sel 1
   ⟨.outlet 554 1, [], .none⟩,  -- 558: poly, [pd NoteOn], object 19: sel 1
   ⟨.cast .bang, [[(560, 0)]], .none⟩]  -- 559: poly, [pd NoteOn], object 19: sel 1

/-- the objects of hvcc/interpreters/pd2hv/libs/pd/poly.pd: kind, connections of each outlet, class (part 35) -/
def b35 (a1 : ℚ) (a2 : ℚ) : List Node :=
  [⟨.outlet 554 0, [], .none⟩,  -- 560: poly, [pd NoteOn], object 19: sel 1
   ⟨.obj, [[(519, 1)]], .bin .lt 0⟩,  -- 561: poly, [pd NoteOn], object 20: <
   ⟨.graph [565, 566], [[(520, 1)]], .none⟩,  -- 562: poly, [pd NoteOn], object 21: f
   ⟨.obj, [[(564, 0)]], .var (.float 0)⟩,  -- 563: f, object 1: pd @hv_obj __var \$1
   ⟨.outlet 562 0, [], .none⟩,  -- 564: f, object 2: outlet
   ⟨.inlet, [[(563, 0)]], .none⟩,  -- 565: f, object 3: inlet -->
   ⟨.inlet, [[(563, 1)]], .none⟩,  -- 566: f, object 4: inlet -->
   ⟨.seq [some .float, some .float, some .float], [[(520, 0)], [(561, 0)], [(562, 1), (568, 1)]], .none⟩,  -- 567: poly, [pd NoteOn], object 22: t f f f
   ⟨.graph [571, 572], [[(561, 1)]], .none⟩,  -- 568: poly, [pd NoteOn], object 23: f
   ⟨.obj, [[(570, 0)]], .var (.float 0)⟩,  -- 569: f, object 1: pd @hv_obj __var \$1
   ⟨.outlet 568 0, [], .none⟩,  -- 570: f, object 2: outlet
   ⟨.inlet, [[(569, 0)]], .none⟩,  -- 571: f, object 3: inlet -->
   ⟨.inlet, [[(569, 1)]], .none⟩,  -- 572: f, object 4: inlet -->
   ⟨.seq [some .float, some .float], [[(562, 0)], [(568, 0)]], .none⟩,  -- 573: poly, [pd NoteOn], object 24: t f f
   ⟨.send 7, [[]], .none⟩,  -- 574: poly, [pd NoteOn], object 25: s \$0-isFirstOff
   ⟨.seq [some .bang, some .bang, some .bang], [[(545, 0)], [(576, 0)], [(562, 0)]], .none⟩]  -- 575: poly, [pd NoteOn], object 26: t b b b

/-- the objects of hvcc/interpreters/pd2hv/libs/pd/poly.pd: kind, connections of each outlet, class (part 36) -/
def b36 (a1 : ℚ) (a2 : ℚ) : List Node :=
  [⟨.obj, [[(574, 0)]], .msg [.lit (.float 1)]⟩,  -- 576: poly, [pd NoteOn], object 27: 1
   ⟨.obj, [[(578, 0)]], .msg [.lit (.float 1)]⟩,  -- 577: poly, [pd NoteOn], object 28: 1
   ⟨.send 8, [[]], .none⟩,  -- 578: poly, [pd NoteOn], object 29: s \$0-isFirstOn
   ⟨.seq [some .bang, some .bang, some .bang], [[(528, 0)], [(577, 0)], [(568, 0)]], .none⟩,  -- 579: poly, [pd NoteOn], object 30: t b b b
   ⟨.obj, [[(552, 0), (551, 0), (581, 0), (582, 0)]], .msg [.lit (.float 0)]⟩,  -- 580: poly, [pd NoteOn], object 31: 0
   ⟨.send 8, [[]], .none⟩,  -- 581: poly, [pd NoteOn], object 32: s \$0-isFirstOn
   ⟨.send 7, [[]], .none⟩,  -- 582: poly, [pd NoteOn], object 33: s \$0-isFirstOff
   ⟨.recv, [[(589, 0)]], .none⟩,  -- 583: poly, [pd NoteOn], object 34: r \$0-isFirstOff
   ⟨.graph [585, 586], [[(638, 0)]], .none⟩,  -- 584: poly, [pd NoteOn], object 35: spigot 0
   ⟨.inlet, [[(588, 0)]], .none⟩,  -- 585: spigot, object 0: inlet
   ⟨.inlet, [[(588, 1)]], .none⟩,  -- 586: spigot, object 1: inlet
   ⟨.outlet 584 0, [], .none⟩,  -- 587: spigot, object 2: outlet
   ⟨.obj, [[], [(587, 0)]], .ite 0⟩,  -- 588: spigot, object 4: pd @hv_obj if \$1
   ⟨.seq [some .float, some .float], [[(584, 1)], [(597, 0)]], .none⟩,  -- 589: poly, [pd NoteOn], object 36: t f f
   ⟨.recv, [[(782, 0)]], .none⟩,  -- 590: poly, [pd NoteOn], object 37: r \$0-isFirstOn
   ⟨.graph [592, 593], [[(781, 0)]], .none⟩]  -- 591: poly, [pd NoteOn], object 38: spigot 0

/-- the objects of hvcc/interpreters/pd2hv/libs/pd/poly.pd: kind, connections of each outlet, class (part 37) -/
def b37 (a1 : ℚ) (a2 : ℚ) : List Node :=
  [⟨.inlet, [[(595, 0)]], .none⟩,  -- 592: spigot, object 0: inlet
   ⟨.inlet, [[(595, 1)]], .none⟩,  -- 593: spigot, object 1: inlet
   ⟨.outlet 591 0, [], .none⟩,  -- 594: spigot, object 2: outlet
   ⟨.obj, [[], [(594, 0)]], .ite 0⟩,  -- 595: spigot, object 4: pd @hv_obj if \$1
   ⟨.obj, [[(625, 0)]], .bin .and 0⟩,  -- 596: poly, [pd NoteOn], object 39: &&
   ⟨.obj, [[(811, 0)]], .bink .eq 0⟩,  -- 597: poly, [pd NoteOn], object 40: == 0
   ⟨.obj, [[(599, 0)]], .pack [0, 0]⟩,  -- 598: poly, [pd NoteOn], object 41: pack f f
   ⟨.seq [none, none], [[(584, 0)], [(591, 0)]], .none⟩,  -- 599: poly, [pd NoteOn], object 42: t a a
   ⟨.outlet 476 1, [], .none⟩,  -- 600: poly, [pd NoteOn], object 43: outlet pitch
   ⟨.outlet 476 2, [], .none⟩,  -- 601: poly, [pd NoteOn], object 44: outlet velocity
   ⟨.recv, [[(621, 0)]], .none⟩,  -- 602: poly, [pd NoteOn], object 45: r \$0-indexOff
   ⟨.graph [606, 607], [[(630, 0)]], .none⟩,  -- 603: poly, [pd NoteOn], object 46: f
   ⟨.obj, [[(605, 0)]], .var (.float 0)⟩,  -- 604: f, object 1: pd @hv_obj __var \$1
   ⟨.outlet 603 0, [], .none⟩,  -- 605: f, object 2: outlet
   ⟨.inlet, [[(604, 0)]], .none⟩,  -- 606: f, object 3: inlet -->
   ⟨.inlet, [[(604, 1)]], .none⟩]  -- 607: f, object 4: inlet -->

/-- the objects of hvcc/interpreters/pd2hv/libs/pd/poly.pd: kind, connections of each outlet, class (part 38) -/
def b38 (a1 : ℚ) (a2 : ℚ) : List Node :=
  [⟨.graph [609], [[(808, 0)], [(601, 0)]], .none⟩,  -- 608: poly, [pd NoteOn], object 47: unpack f f
   ⟨.inlet, [[(610, 0), (612, 0)]], .none⟩,  -- 609: poly, [pd NoteOn], object 47: unpack f f
   ⟨.obj, [[(611, 0)], []], .slice 1 1⟩,  -- 610: poly, [pd NoteOn], object 47: unpack f f
   ⟨.outlet 608 1, [], .none⟩,  -- 611: poly, [pd NoteOn], object 47: unpack f f
   ⟨.obj, [[(613, 0)], []], .slice 0 1⟩,  -- 612: poly, [pd NoteOn], object 47: unpack f f
   ⟨.outlet 608 0, [], .none⟩,  -- 613: poly, [pd NoteOn], object 47: unpack f f
   ⟨.recv, [[(620, 0)]], .none⟩,  -- 614: poly, [pd NoteOn], object 48: r \$0-indexOn
   ⟨.graph [618, 619], [[(630, 0)]], .none⟩,  -- 615: poly, [pd NoteOn], object 49: f
   ⟨.obj, [[(617, 0)]], .var (.float 0)⟩,  -- 616: f, object 1: pd @hv_obj __var \$1
   ⟨.outlet 615 0, [], .none⟩,  -- 617: f, object 2: outlet
   ⟨.inlet, [[(616, 0)]], .none⟩,  -- 618: f, object 3: inlet -->
   ⟨.inlet, [[(616, 1)]], .none⟩,  -- 619: f, object 4: inlet -->
   ⟨.seq [none, none, none, none], [[(615, 1), (631, 1)], [(761, 1)], [(783, 1)], [(691, 1)]], .none⟩,  -- 620: poly, [pd NoteOn], object 50: t a a a a
   ⟨.seq [none, none, none, none], [[(737, 1)], [(725, 1)], [(749, 1)], [(603, 1)]], .none⟩,  -- 621: poly, [pd NoteOn], object 51: t a a a a
   ⟨.obj, [[(737, 0)]], .msg [.lit (.float 1)]⟩,  -- 622: poly, [pd NoteOn], object 52: 1
   ⟨.obj, [[(783, 0)]], .msg [.lit (.float 1)]⟩]  -- 623: poly, [pd NoteOn], object 53: 1

/-- the objects of hvcc/interpreters/pd2hv/libs/pd/poly.pd: kind, connections of each outlet, class (part 39) -/
def b39 (a1 : ℚ) (a2 : ℚ) : List Node :=
  [⟨.recv, [[(625, 1)]], .none⟩,  -- 624: poly, [pd NoteOn], object 54: r \$0-shouldSteal
   ⟨.graph [626, 627], [[(591, 1)]], .none⟩,  -- 625: poly, [pd NoteOn], object 55: spigot 0
   ⟨.inlet, [[(629, 0)]], .none⟩,  -- 626: spigot, object 0: inlet
   ⟨.inlet, [[(629, 1)]], .none⟩,  -- 627: spigot, object 1: inlet
   ⟨.outlet 625 0, [], .none⟩,  -- 628: spigot, object 2: outlet
   ⟨.obj, [[], [(628, 0)]], .ite 0⟩,  -- 629: spigot, object 4: pd @hv_obj if \$1
   ⟨.outlet 476 0, [], .none⟩,  -- 630: poly, [pd NoteOn], object 56: outlet id
   ⟨.graph [634, 635], [[(703, 0)]], .none⟩,  -- 631: poly, [pd NoteOn], object 57: f
   ⟨.obj, [[(633, 0)]], .var (.float 0)⟩,  -- 632: f, object 1: pd @hv_obj __var \$1
   ⟨.outlet 631 0, [], .none⟩,  -- 633: f, object 2: outlet
   ⟨.inlet, [[(632, 0)]], .none⟩,  -- 634: f, object 3: inlet -->
   ⟨.inlet, [[(632, 1)]], .none⟩,  -- 635: f, object 4: inlet -->
   ⟨.seq [some .bang, some .bang, some .bang], [[(615, 0)], [(631, 0)], [(637, 0)]], .none⟩,  -- 636: poly, [pd NoteOn], object 58: t b b b
   ⟨.obj, [[(601, 0)]], .msg [.lit (.float 0)]⟩,  -- 637: poly, [pd NoteOn], object 59: 0
   ⟨.seq [some .bang, some .bang, some .bang, none], [[(639, 0)], [(622, 0)], [(603, 0)], [(608, 0)]], .none⟩,  -- 638: poly, [pd NoteOn], object 60: t b b b a
   ⟨.seq [some .bang, some .bang], [[(642, 0)], [(641, 0)]], .none⟩]  -- 639: poly, [pd NoteOn], object 61: t b b

/-- the objects of hvcc/interpreters/pd2hv/libs/pd/poly.pd: kind, connections of each outlet, class (part 40) -/
def b40 (a1 : ℚ) (a2 : ℚ) : List Node :=
  [⟨.recv, [[(642, 1)]], .none⟩,  -- 640: poly, [pd NoteOn], object 62: r \$0-currentVoiceId
   ⟨.send 3, [[]], .none⟩,  -- 641: poly, [pd NoteOn], object 63: s \$0-voiceId++
   ⟨.graph [645, 646], [[(749, 0)]], .none⟩,  -- 642: poly, [pd NoteOn], object 64: f
   ⟨.obj, [[(644, 0)]], .var (.float 0)⟩,  -- 643: f, object 1: pd @hv_obj __var \$1
   ⟨.outlet 642 0, [], .none⟩,  -- 644: f, object 2: outlet
   ⟨.inlet, [[(643, 0)]], .none⟩,  -- 645: f, object 3: inlet -->
   ⟨.inlet, [[(643, 1)]], .none⟩,  -- 646: f, object 4: inlet -->
   ⟨.graph [648], [[(535, 0)]], .none⟩,  -- 647: poly, [pd NoteOn], object 65: tabread \$0-used
   ⟨.inlet, [[(651, 0)]], .none⟩,  -- 648: tabread, object 0: inlet -->
   ⟨.outlet 647 0, [], .none⟩,  -- 649: tabread, object 1: outlet -->
   ⟨.obj, [[(649, 0)]], .tabread 1⟩,  -- 650: tabread, object 2: pd @hv_obj __tabread \$1
   ⟨.graph [652, 653], [[(650, 1)], [(660, 0)]], .none⟩,  -- 651: tabread, object 3: route set
   ⟨.inlet, [[(654, 0)]], .none⟩,  -- 652: tabread, object 3: route set
   ⟨.inlet, [[]], .none⟩,  -- 653: tabread, object 3: route set
   ⟨.obj, [[(656, 0)], [(655, 0)]], .switch [(.sym "set")]⟩,  -- 654: tabread, object 3: route set
   ⟨.outlet 651 1, [], .none⟩]  -- 655: tabread, object 3: route set

/-- the objects of hvcc/interpreters/pd2hv/libs/pd/poly.pd: kind, connections of each outlet, class (part 41) -/
def b41 (a1 : ℚ) (a2 : ℚ) : List Node :=
  [⟨.obj, [[(657, 0)], [(657, 0)]], .slice 1 0⟩,  -- 656: tabread, object 3: route set
   ⟨.outlet 651 0, [], .none⟩,  -- 657: tabread, object 3: route set
   ⟨.obj, [[(668, 0)]], .system⟩,  -- 658: tabread, object 5: pd @hv_obj system
   ⟨.obj, [[(666, 0)]], .bink .max 0⟩,  -- 659: tabread, object 6: max 0
   ⟨.seq [some .float, some .bang], [[(659, 0)], [(661, 0)]], .none⟩,  -- 660: tabread, object 7: t f b
   ⟨.graph [662, 665], [[(667, 0)]], .none⟩,  -- 661: tabread, object 8: symbol \$1
   ⟨.inlet, [[(664, 0)]], .none⟩,  -- 662: symbol, object 0: inlet
   ⟨.outlet 661 0, [], .none⟩,  -- 663: symbol, object 1: outlet
   ⟨.obj, [[(663, 0)]], .var (.sym "1-used")⟩,  -- 664: symbol, object 2: pd @hv_obj __var \$1
   ⟨.inlet, [[(664, 1)]], .none⟩,  -- 665: symbol, object 3: inlet
   ⟨.obj, [[(650, 0)]], .bin .min 0⟩,  -- 666: tabread, object 9: min 0
   ⟨.obj, [[(658, 0)]], .msg [.lit (.sym "table"), .arg 0, .lit (.sym "length")]⟩,  -- 667: tabread, object 10: table \$1 length
   ⟨.obj, [[(666, 1)]], .bink .sub 1⟩,  -- 668: tabread, object 11: - 1
   ⟨.graph [670], [[(567, 0)]], .none⟩,  -- 669: poly, [pd NoteOn], object 66: tabread \$0-ids
   ⟨.inlet, [[(673, 0)]], .none⟩,  -- 670: tabread, object 0: inlet -->
   ⟨.outlet 669 0, [], .none⟩]  -- 671: tabread, object 1: outlet -->

/-- the objects of hvcc/interpreters/pd2hv/libs/pd/poly.pd: kind, connections of each outlet, class (part 42) -/
def b42 (a1 : ℚ) (a2 : ℚ) : List Node :=
  [⟨.obj, [[(671, 0)]], .tabread 2⟩,  -- 672: tabread, object 2: pd @hv_obj __tabread \$1
   ⟨.graph [674, 675], [[(672, 1)], [(682, 0)]], .none⟩,  -- 673: tabread, object 3: route set
   ⟨.inlet, [[(676, 0)]], .none⟩,  -- 674: tabread, object 3: route set
   ⟨.inlet, [[]], .none⟩,  -- 675: tabread, object 3: route set
   ⟨.obj, [[(678, 0)], [(677, 0)]], .switch [(.sym "set")]⟩,  -- 676: tabread, object 3: route set
   ⟨.outlet 673 1, [], .none⟩,  -- 677: tabread, object 3: route set
   ⟨.obj, [[(679, 0)], [(679, 0)]], .slice 1 0⟩,  -- 678: tabread, object 3: route set
   ⟨.outlet 673 0, [], .none⟩,  -- 679: tabread, object 3: route set
   ⟨.obj, [[(690, 0)]], .system⟩,  -- 680: tabread, object 5: pd @hv_obj system
   ⟨.obj, [[(688, 0)]], .bink .max 0⟩,  -- 681: tabread, object 6: max 0
   ⟨.seq [some .float, some .bang], [[(681, 0)], [(683, 0)]], .none⟩,  -- 682: tabread, object 7: t f b
   ⟨.graph [684, 687], [[(689, 0)]], .none⟩,  -- 683: tabread, object 8: symbol \$1
   ⟨.inlet, [[(686, 0)]], .none⟩,  -- 684: symbol, object 0: inlet
   ⟨.outlet 683 0, [], .none⟩,  -- 685: symbol, object 1: outlet
   ⟨.obj, [[(685, 0)]], .var (.sym "1-ids")⟩,  -- 686: symbol, object 2: pd @hv_obj __var \$1
   ⟨.inlet, [[(686, 1)]], .none⟩]  -- 687: symbol, object 3: inlet

/-- the objects of hvcc/interpreters/pd2hv/libs/pd/poly.pd: kind, connections of each outlet, class (part 43) -/
def b43 (a1 : ℚ) (a2 : ℚ) : List Node :=
  [⟨.obj, [[(672, 0)]], .bin .min 0⟩,  -- 688: tabread, object 9: min 0
   ⟨.obj, [[(680, 0)]], .msg [.lit (.sym "table"), .arg 0, .lit (.sym "length")]⟩,  -- 689: tabread, object 10: table \$1 length
   ⟨.obj, [[(688, 1)]], .bink .sub 1⟩,  -- 690: tabread, object 11: - 1
   ⟨.graph [692, 693], [[]], .none⟩,  -- 691: poly, [pd NoteOn], object 67: tabwrite \$0-pitches
   ⟨.inlet, [[(696, 0)]], .none⟩,  -- 692: tabwrite, object 0: inlet -->
   ⟨.inlet, [[(695, 1)]], .none⟩,  -- 693: tabwrite, object 1: inlet -->
   ⟨.outlet 691 0, [], .none⟩,  -- 694: tabwrite, object 2: outlet -->
   ⟨.obj, [[(694, 0)]], .tabwrite 0⟩,  -- 695: tabwrite, object 3: pd @hv_obj __tabwrite \$1
   ⟨.graph [697, 698], [[(695, 2)], [(695, 0)]], .none⟩,  -- 696: tabwrite, object 4: route set
   ⟨.inlet, [[(699, 0)]], .none⟩,  -- 697: tabwrite, object 4: route set
   ⟨.inlet, [[]], .none⟩,  -- 698: tabwrite, object 4: route set
   ⟨.obj, [[(701, 0)], [(700, 0)]], .switch [(.sym "set")]⟩,  -- 699: tabwrite, object 4: route set
   ⟨.outlet 696 1, [], .none⟩,  -- 700: tabwrite, object 4: route set
   ⟨.obj, [[(702, 0)], [(702, 0)]], .slice 1 0⟩,  -- 701: tabwrite, object 4: route set
   ⟨.outlet 696 0, [], .none⟩,  -- 702: tabwrite, object 4: route set
   ⟨.graph [704], [[(600, 0)]], .none⟩]  -- 703: poly, [pd NoteOn], object 68: tabread \$0-pitches

/-- the objects of hvcc/interpreters/pd2hv/libs/pd/poly.pd: kind, connections of each outlet, class (part 44) -/
def b44 (a1 : ℚ) (a2 : ℚ) : List Node :=
  [⟨.inlet, [[(707, 0)]], .none⟩,  -- 704: tabread, object 0: inlet -->
   ⟨.outlet 703 0, [], .none⟩,  -- 705: tabread, object 1: outlet -->
   ⟨.obj, [[(705, 0)]], .tabread 0⟩,  -- 706: tabread, object 2: pd @hv_obj __tabread \$1
   ⟨.graph [708, 709], [[(706, 1)], [(716, 0)]], .none⟩,  -- 707: tabread, object 3: route set
   ⟨.inlet, [[(710, 0)]], .none⟩,  -- 708: tabread, object 3: route set
   ⟨.inlet, [[]], .none⟩,  -- 709: tabread, object 3: route set
   ⟨.obj, [[(712, 0)], [(711, 0)]], .switch [(.sym "set")]⟩,  -- 710: tabread, object 3: route set
   ⟨.outlet 707 1, [], .none⟩,  -- 711: tabread, object 3: route set
   ⟨.obj, [[(713, 0)], [(713, 0)]], .slice 1 0⟩,  -- 712: tabread, object 3: route set
   ⟨.outlet 707 0, [], .none⟩,  -- 713: tabread, object 3: route set
   ⟨.obj, [[(724, 0)]], .system⟩,  -- 714: tabread, object 5: pd @hv_obj system
   ⟨.obj, [[(722, 0)]], .bink .max 0⟩,  -- 715: tabread, object 6: max 0
   ⟨.seq [some .float, some .bang], [[(715, 0)], [(717, 0)]], .none⟩,  -- 716: tabread, object 7: t f b
   ⟨.graph [718, 721], [[(723, 0)]], .none⟩,  -- 717: tabread, object 8: symbol \$1
   ⟨.inlet, [[(720, 0)]], .none⟩,  -- 718: symbol, object 0: inlet
   ⟨.outlet 717 0, [], .none⟩]  -- 719: symbol, object 1: outlet

/-- the objects of hvcc/interpreters/pd2hv/libs/pd/poly.pd: kind, connections of each outlet, class (part 45) -/
def b45 (a1 : ℚ) (a2 : ℚ) : List Node :=
  [⟨.obj, [[(719, 0)]], .var (.sym "1-pitches")⟩,  -- 720: symbol, object 2: pd @hv_obj __var \$1
   ⟨.inlet, [[(720, 1)]], .none⟩,  -- 721: symbol, object 3: inlet
   ⟨.obj, [[(706, 0)]], .bin .min 0⟩,  -- 722: tabread, object 9: min 0
   ⟨.obj, [[(714, 0)]], .msg [.lit (.sym "table"), .arg 0, .lit (.sym "length")]⟩,  -- 723: tabread, object 10: table \$1 length
   ⟨.obj, [[(722, 1)]], .bink .sub 1⟩,  -- 724: tabread, object 11: - 1
   ⟨.graph [726, 727], [[]], .none⟩,  -- 725: poly, [pd NoteOn], object 69: tabwrite \$0-pitches
   ⟨.inlet, [[(730, 0)]], .none⟩,  -- 726: tabwrite, object 0: inlet -->
   ⟨.inlet, [[(729, 1)]], .none⟩,  -- 727: tabwrite, object 1: inlet -->
   ⟨.outlet 725 0, [], .none⟩,  -- 728: tabwrite, object 2: outlet -->
   ⟨.obj, [[(728, 0)]], .tabwrite 0⟩,  -- 729: tabwrite, object 3: pd @hv_obj __tabwrite \$1
   ⟨.graph [731, 732], [[(729, 2)], [(729, 0)]], .none⟩,  -- 730: tabwrite, object 4: route set
   ⟨.inlet, [[(733, 0)]], .none⟩,  -- 731: tabwrite, object 4: route set
   ⟨.inlet, [[]], .none⟩,  -- 732: tabwrite, object 4: route set
   ⟨.obj, [[(735, 0)], [(734, 0)]], .switch [(.sym "set")]⟩,  -- 733: tabwrite, object 4: route set
   ⟨.outlet 730 1, [], .none⟩,  -- 734: tabwrite, object 4: route set
   ⟨.obj, [[(736, 0)], [(736, 0)]], .slice 1 0⟩]  -- 735: tabwrite, object 4: route set

/-- the objects of hvcc/interpreters/pd2hv/libs/pd/poly.pd: kind, connections of each outlet, class (part 46) -/
def b46 (a1 : ℚ) (a2 : ℚ) : List Node :=
  [⟨.outlet 730 0, [], .none⟩,  -- 736: tabwrite, object 4: route set
   ⟨.graph [738, 739], [[]], .none⟩,  -- 737: poly, [pd NoteOn], object 70: tabwrite \$0-used
   ⟨.inlet, [[(742, 0)]], .none⟩,  -- 738: tabwrite, object 0: inlet -->
   ⟨.inlet, [[(741, 1)]], .none⟩,  -- 739: tabwrite, object 1: inlet -->
   ⟨.outlet 737 0, [], .none⟩,  -- 740: tabwrite, object 2: outlet -->
   ⟨.obj, [[(740, 0)]], .tabwrite 1⟩,  -- 741: tabwrite, object 3: pd @hv_obj __tabwrite \$1
   ⟨.graph [743, 744], [[(741, 2)], [(741, 0)]], .none⟩,  -- 742: tabwrite, object 4: route set
   ⟨.inlet, [[(745, 0)]], .none⟩,  -- 743: tabwrite, object 4: route set
   ⟨.inlet, [[]], .none⟩,  -- 744: tabwrite, object 4: route set
   ⟨.obj, [[(747, 0)], [(746, 0)]], .switch [(.sym "set")]⟩,  -- 745: tabwrite, object 4: route set
   ⟨.outlet 742 1, [], .none⟩,  -- 746: tabwrite, object 4: route set
   ⟨.obj, [[(748, 0)], [(748, 0)]], .slice 1 0⟩,  -- 747: tabwrite, object 4: route set
   ⟨.outlet 742 0, [], .none⟩,  -- 748: tabwrite, object 4: route set
   ⟨.graph [750, 751], [[]], .none⟩,  -- 749: poly, [pd NoteOn], object 71: tabwrite \$0-ids
   ⟨.inlet, [[(754, 0)]], .none⟩,  -- 750: tabwrite, object 0: inlet -->
   ⟨.inlet, [[(753, 1)]], .none⟩]  -- 751: tabwrite, object 1: inlet -->

/-- the objects of hvcc/interpreters/pd2hv/libs/pd/poly.pd: kind, connections of each outlet, class (part 47) -/
def b47 (a1 : ℚ) (a2 : ℚ) : List Node :=
  [⟨.outlet 749 0, [], .none⟩,  -- 752: tabwrite, object 2: outlet -->
   ⟨.obj, [[(752, 0)]], .tabwrite 2⟩,  -- 753: tabwrite, object 3: pd @hv_obj __tabwrite \$1
   ⟨.graph [755, 756], [[(753, 2)], [(753, 0)]], .none⟩,  -- 754: tabwrite, object 4: route set
   ⟨.inlet, [[(757, 0)]], .none⟩,  -- 755: tabwrite, object 4: route set
   ⟨.inlet, [[]], .none⟩,  -- 756: tabwrite, object 4: route set
   ⟨.obj, [[(759, 0)], [(758, 0)]], .switch [(.sym "set")]⟩,  -- 757: tabwrite, object 4: route set
   ⟨.outlet 754 1, [], .none⟩,  -- 758: tabwrite, object 4: route set
   ⟨.obj, [[(760, 0)], [(760, 0)]], .slice 1 0⟩,  -- 759: tabwrite, object 4: route set
   ⟨.outlet 754 0, [], .none⟩,  -- 760: tabwrite, object 4: route set
   ⟨.graph [762, 763], [[]], .none⟩,  -- 761: poly, [pd NoteOn], object 72: tabwrite \$0-ids
   ⟨.inlet, [[(766, 0)]], .none⟩,  -- 762: tabwrite, object 0: inlet -->
   ⟨.inlet, [[(765, 1)]], .none⟩,  -- 763: tabwrite, object 1: inlet -->
   ⟨.outlet 761 0, [], .none⟩,  -- 764: tabwrite, object 2: outlet -->
   ⟨.obj, [[(764, 0)]], .tabwrite 2⟩,  -- 765: tabwrite, object 3: pd @hv_obj __tabwrite \$1
   ⟨.graph [767, 768], [[(765, 2)], [(765, 0)]], .none⟩,  -- 766: tabwrite, object 4: route set
   ⟨.inlet, [[(769, 0)]], .none⟩]  -- 767: tabwrite, object 4: route set

/-- the objects of hvcc/interpreters/pd2hv/libs/pd/poly.pd: kind, connections of each outlet, class (part 48) -/
def b48 (a1 : ℚ) (a2 : ℚ) : List Node :=
  [⟨.inlet, [[]], .none⟩,  -- 768: tabwrite, object 4: route set
   ⟨.obj, [[(771, 0)], [(770, 0)]], .switch [(.sym "set")]⟩,  -- 769: tabwrite, object 4: route set
   ⟨.outlet 766 1, [], .none⟩,  -- 770: tabwrite, object 4: route set
   ⟨.obj, [[(772, 0)], [(772, 0)]], .slice 1 0⟩,  -- 771: tabwrite, object 4: route set
   ⟨.outlet 766 0, [], .none⟩,  -- 772: tabwrite, object 4: route set
   ⟨.seq [some .bang, some .bang], [[(776, 0)], [(775, 0)]], .none⟩,  -- 773: poly, [pd NoteOn], object 73: t b b
   ⟨.recv, [[(776, 1)]], .none⟩,  -- 774: poly, [pd NoteOn], object 74: r \$0-currentVoiceId
   ⟨.send 3, [[]], .none⟩,  -- 775: poly, [pd NoteOn], object 75: s \$0-voiceId++
   ⟨.graph [779, 780], [[(761, 0)]], .none⟩,  -- 776: poly, [pd NoteOn], object 76: f
   ⟨.obj, [[(778, 0)]], .var (.float 0)⟩,  -- 777: f, object 1: pd @hv_obj __var \$1
   ⟨.outlet 776 0, [], .none⟩,  -- 778: f, object 2: outlet
   ⟨.inlet, [[(777, 0)]], .none⟩,  -- 779: f, object 3: inlet -->
   ⟨.inlet, [[(777, 1)]], .none⟩,  -- 780: f, object 4: inlet -->
   ⟨.seq [some .bang, some .bang, some .bang, none, some .bang], [[(773, 0)], [(623, 0)], [(615, 0)], [(801, 0)], [(636, 0)]], .none⟩,  -- 781: poly, [pd NoteOn], object 77: t b b b a b
   ⟨.seq [some .bang, some .float], [[(811, 0)], [(596, 1)]], .none⟩,  -- 782: poly, [pd NoteOn], object 78: t b f
   ⟨.graph [784, 785], [[]], .none⟩]  -- 783: poly, [pd NoteOn], object 79: tabwrite \$0-used

/-- the objects of hvcc/interpreters/pd2hv/libs/pd/poly.pd: kind, connections of each outlet, class (part 49) -/
def b49 (a1 : ℚ) (a2 : ℚ) : List Node :=
  [⟨.inlet, [[(788, 0)]], .none⟩,  -- 784: tabwrite, object 0: inlet -->
   ⟨.inlet, [[(787, 1)]], .none⟩,  -- 785: tabwrite, object 1: inlet -->
   ⟨.outlet 783 0, [], .none⟩,  -- 786: tabwrite, object 2: outlet -->
   ⟨.obj, [[(786, 0)]], .tabwrite 1⟩,  -- 787: tabwrite, object 3: pd @hv_obj __tabwrite \$1
   ⟨.graph [789, 790], [[(787, 2)], [(787, 0)]], .none⟩,  -- 788: tabwrite, object 4: route set
   ⟨.inlet, [[(791, 0)]], .none⟩,  -- 789: tabwrite, object 4: route set
   ⟨.inlet, [[]], .none⟩,  -- 790: tabwrite, object 4: route set
   ⟨.obj, [[(793, 0)], [(792, 0)]], .switch [(.sym "set")]⟩,  -- 791: tabwrite, object 4: route set
   ⟨.outlet 788 1, [], .none⟩,  -- 792: tabwrite, object 4: route set
   ⟨.obj, [[(794, 0)], [(794, 0)]], .slice 1 0⟩,  -- 793: tabwrite, object 4: route set
   ⟨.outlet 788 0, [], .none⟩,  -- 794: tabwrite, object 4: route set
   ⟨.recv, [[(796, 1)]], .none⟩,  -- 795: poly, [pd NoteOn], object 80: r \$0-maxVoiceId
   ⟨.graph [799, 800], [[(573, 0)]], .none⟩,  -- 796: poly, [pd NoteOn], object 81: f
   ⟨.obj, [[(798, 0)]], .var (.float 0)⟩,  -- 797: f, object 1: pd @hv_obj __var \$1
   ⟨.outlet 796 0, [], .none⟩,  -- 798: f, object 2: outlet
   ⟨.inlet, [[(797, 0)]], .none⟩]  -- 799: f, object 3: inlet -->

/-- the objects of hvcc/interpreters/pd2hv/libs/pd/poly.pd: kind, connections of each outlet, class (part 50) -/
def b50 (a1 : ℚ) (a2 : ℚ) : List Node :=
  [⟨.inlet, [[(797, 1)]], .none⟩,  -- 800: f, object 4: inlet -->
   ⟨.graph [802], [[(807, 0)], [(601, 0)]], .none⟩,  -- 801: poly, [pd NoteOn], object 82: unpack f f
   ⟨.inlet, [[(803, 0), (805, 0)]], .none⟩,  -- 802: poly, [pd NoteOn], object 82: unpack f f
   ⟨.obj, [[(804, 0)], []], .slice 1 1⟩,  -- 803: poly, [pd NoteOn], object 82: unpack f f
   ⟨.outlet 801 1, [], .none⟩,  -- 804: poly, [pd NoteOn], object 82: unpack f f
   ⟨.obj, [[(806, 0)], []], .slice 0 1⟩,  -- 805: poly, [pd NoteOn], object 82: unpack f f
   ⟨.outlet 801 0, [], .none⟩,  -- 806: poly, [pd NoteOn], object 82: unpack f f
   ⟨.seq [none, none], [[(600, 0)], [(691, 0)]], .none⟩,  -- 807: poly, [pd NoteOn], object 83: t a a
   ⟨.seq [none, none], [[(600, 0)], [(725, 0)]], .none⟩,  -- 808: poly, [pd NoteOn], object 84: t a a
   ⟨.inlet, [[(553, 0)]], .none⟩,  -- 809: poly, [pd NoteOn], object 85: inlet pitch
   ⟨.inlet, [[(598, 1)]], .none⟩,  -- 810: poly, [pd NoteOn], object 86: inlet vel
   ⟨.graph [814, 815], [[(596, 0)]], .none⟩,  -- 811: poly, [pd NoteOn], object 87: f
   ⟨.obj, [[(813, 0)]], .var (.float 0)⟩,  -- 812: f, object 1: pd @hv_obj __var \$1
   ⟨.outlet 811 0, [], .none⟩,  -- 813: f, object 2: outlet
   ⟨.inlet, [[(812, 0)]], .none⟩,  -- 814: f, object 3: inlet -->
   ⟨.inlet, [[(812, 1)]], .none⟩]  -- 815: f, object 4: inlet -->

/-- the objects of hvcc/interpreters/pd2hv/libs/pd/poly.pd: kind, connections of each outlet, class (part 51) -/
def b51 (a1 : ℚ) (a2 : ℚ) : List Node :=
  [⟨.obj, [], .probe 0⟩,  -- 816: outlet 0 of the abstraction
   ⟨.obj, [], .probe 1⟩,  -- 817: outlet 1 of the abstraction
   ⟨.obj, [], .probe 2⟩,  -- 818: outlet 2 of the abstraction
   ⟨.obj, [[(0, 0)]], .none⟩,  -- 819: an object of the surrounding patch, connected to inlet 0
   ⟨.obj, [[(0, 1)]], .none⟩]  -- 820: an object of the surrounding patch, connected to inlet 1

/-- all parts, for looking up -/
def tree (a1 : ℚ) (a2 : ℚ) : Tree Node :=
  (.fork 416 (.fork 208 (.fork 96 (.fork 48 (.fork 16 (.leaf (b0 a1 a2)) (.fork 16 (.leaf (b1 a1 a2)) (.leaf (b2 a1 a2)))) (.fork 16 (.leaf (b3 a1 a2)) (.fork 16 (.leaf (b4 a1 a2)) (.leaf (b5 a1 a2))))) (.fork 48 (.fork 16 (.leaf (b6 a1 a2)) (.fork 16 (.leaf (b7 a1 a2)) (.leaf (b8 a1 a2)))) (.fork 32 (.fork 16 (.leaf (b9 a1 a2)) (.leaf (b10 a1 a2))) (.fork 16 (.leaf (b11 a1 a2)) (.leaf (b12 a1 a2)))))) (.fork 96 (.fork 48 (.fork 16 (.leaf (b13 a1 a2)) (.fork 16 (.leaf (b14 a1 a2)) (.leaf (b15 a1 a2)))) (.fork 16 (.leaf (b16 a1 a2)) (.fork 16 (.leaf (b17 a1 a2)) (.leaf (b18 a1 a2))))) (.fork 48 (.fork 16 (.leaf (b19 a1 a2)) (.fork 16 (.leaf (b20 a1 a2)) (.leaf (b21 a1 a2)))) (.fork 32 (.fork 16 (.leaf (b22 a1 a2)) (.leaf (b23 a1 a2))) (.fork 16 (.leaf (b24 a1 a2)) (.leaf (b25 a1 a2))))))) (.fork 208 (.fork 96 (.fork 48 (.fork 16 (.leaf (b26 a1 a2)) (.fork 16 (.leaf (b27 a1 a2)) (.leaf (b28 a1 a2)))) (.fork 16 (.leaf (b29 a1 a2)) (.fork 16 (.leaf (b30 a1 a2)) (.leaf (b31 a1 a2))))) (.fork 48 (.fork 16 (.leaf (b32 a1 a2)) (.fork 16 (.leaf (b33 a1 a2)) (.leaf (b34 a1 a2)))) (.fork 32 (.fork 16 (.leaf (b35 a1 a2)) (.leaf (b36 a1 a2))) (.fork 16 (.leaf (b37 a1 a2)) (.leaf (b38 a1 a2)))))) (.fork 96 (.fork 48 (.fork 16 (.leaf (b39 a1 a2)) (.fork 16 (.leaf (b40 a1 a2)) (.leaf (b41 a1 a2)))) (.fork 16 (.leaf (b42 a1 a2)) (.fork 16 (.leaf (b43 a1 a2)) (.leaf (b44 a1 a2))))) (.fork 48 (.fork 16 (.leaf (b45 a1 a2)) (.fork 16 (.leaf (b46 a1 a2)) (.leaf (b47 a1 a2)))) (.fork 32 (.fork 16 (.leaf (b48 a1 a2)) (.leaf (b49 a1 a2))) (.fork 16 (.leaf (b50 a1 a2)) (.leaf (b51 a1 a2))))))))

/-- all parts -/
def nodes (a1 : ℚ) (a2 : ℚ) : List Node := (tree a1 a2).toList

/-- receivers by name, in the order of the file: 0 = __hv_init, 1 = 1-shouldSteal, 2 = 1-currentVoiceId, 3 = 1-voiceId++, 4 = 1-maxVoiceId, 5 = 1-indexOn, 6 = 1-indexOff, 7 = 1-isFirstOff, 8 = 1-isFirstOn -/
def recvs : List (List Nat) := [[7], [624], [246, 640, 774], [12], [25, 195, 795], [614], [602], [583], [590]]

/-- priorities of receivers, PdReceiveObject.py:96-100 -/
def prio : Nat → Int
  | 7 => 999
  | 12 => -2
  | 25 => -3
  | 195 => 996
  | 246 => 995
  | 583 => 994
  | 590 => 993
  | 602 => 992
  | 614 => 991
  | 624 => 990
  | 640 => 989
  | 774 => 988
  | 795 => 987
  | _ => 0

/-- the receivers in the order in which they fire -/
def order : List (List Nat) := [[7], [624], [246, 640, 774], [12], [195, 795, 25], [614], [602], [583], [590]]

/-- the object connected to inlet `i` -/
def drv (i : Nat) : Nat := 819 + i

/-- the abstraction as it is (`Verif.Control`: C45, C35) -/
def mach (a1 : ℚ) (a2 : ℚ) (c : Ctx) : Mach := source c (nodes a1 a2) (recvsOf recvs) prio (recvsOf order)

/-- `M` is generated code -/
def Code (a1 : ℚ) (a2 : ℚ) (c : Ctx) (M : Mach) : Prop := Compiled c (nodes a1 a2) (recvsOf recvs) prio M

/-- what it means -/
def sys (a1 : ℚ) (a2 : ℚ) (c : Ctx) : Control.Sys St Msg := (mach a1 a2 c).sys

theorem sys_eq (a1 : ℚ) (a2 : ℚ) (c : Ctx) : sys a1 a2 c = (patchT (tree a1 a2) (recvsOf recvs) prio).means (recvsOf order) (env c (clsT (tree a1 a2))) :=
  source_tree (t := tree a1 a2) rfl c _ _ _

/-- kinds and connections (part 0) -/
def s0 : Shape :=
  [(.graph [62, 46], [[(816, 0)], [(817, 0)], [(818, 0)]]),
   (.send 1, [[]]),
   (.obj, [[(13, 1)]]),
   (.send 2, [[]]),
   (.outlet 0 1, []),
   (.outlet 0 2, []),
   (.graph [], [[(22, 0)]]),
   (.recv, [[(8, 0)]]),
   (.outlet 6 0, []),
   (.obj, [[(63, 0)]]),
   (.outlet 0 0, []),
   (.obj, [[(10, 0)]]),
   (.recv, [[(13, 0)]]),
   (.graph [16, 17], [[(18, 0)]]),
   (.obj, [[(15, 0)]]),
   (.outlet 13 0, [])]

/-- kinds and connections (part 1) -/
def s1 : Shape :=
  [(.inlet, [[(14, 0)]]),
   (.inlet, [[(14, 1)]]),
   (.obj, [[(2, 0), (3, 0)]]),
   (.obj, [[]]),
   (.obj, [[]]),
   (.obj, [[]]),
   (.seq [some .bang, some .bang], [[(9, 0)], [(24, 0)]]),
   (.send 4, [[]]),
   (.obj, [[(23, 0)]]),
   (.recv, [[(18, 1)]]),
   (.graph [27, 28], [[(272, 0)], [(390, 0)], [(35, 0)]]),
   (.inlet, [[(29, 0)]]),
   (.inlet, [[]]),
   (.obj, [[(31, 0)], [(33, 0)], [(30, 0)]]),
   (.outlet 26 2, []),
   (.obj, [[(32, 0)], [(32, 0)]])]

/-- kinds and connections (part 2) -/
def s2 : Shape :=
  [(.outlet 26 0, []),
   (.obj, [[(34, 0)], [(34, 0)]]),
   (.outlet 26 1, []),
   (.graph [36], [[(61, 0)], [(41, 0)]]),
   (.inlet, [[(37, 0), (39, 0)]]),
   (.obj, [[(38, 0)], []]),
   (.outlet 35 1, []),
   (.obj, [[(40, 0)], []]),
   (.outlet 35 0, []),
   (.graph [44, 45], [[(54, 0)]]),
   (.obj, [[(43, 0)]]),
   (.outlet 41 0, []),
   (.inlet, [[(42, 0)]]),
   (.inlet, [[(42, 1)]]),
   (.inlet, [[(41, 0)]]),
   (.obj, [[(48, 0)]])]

/-- kinds and connections (part 3) -/
def s3 : Shape :=
  [(.seq [none, none], [[(60, 0)], [(49, 1)]]),
   (.graph [50, 51], [[(476, 0)]]),
   (.inlet, [[(53, 0)]]),
   (.inlet, [[(53, 1)]]),
   (.outlet 49 0, []),
   (.obj, [[], [(52, 0)]]),
   (.seq [none, none, none], [[(47, 0)], [(64, 1)], [(476, 1)]]),
   (.graph [56, 57], [[(64, 0)]]),
   (.inlet, [[(59, 0)]]),
   (.inlet, [[(59, 1)]]),
   (.outlet 55 0, []),
   (.obj, [[], [(58, 0)]]),
   (.obj, [[(55, 1)]]),
   (.seq [none, none], [[(55, 0)], [(49, 0)]]),
   (.inlet, [[(26, 0)]]),
   (.obj, [[(1, 0)]])]

/-- kinds and connections (part 4) -/
def s4 : Shape :=
  [(.graph [268, 269], [[(11, 0)], [(4, 0)], [(5, 0)]]),
   (.outlet 64 1, []),
   (.outlet 64 2, []),
   (.outlet 64 0, []),
   (.graph [69], [[(110, 0)]]),
   (.inlet, [[(94, 0)]]),
   (.seq [some .float, some .float], [[(71, 0)], [(76, 0)]]),
   (.graph [72, 73], [[(108, 0)]]),
   (.inlet, [[(75, 0)]]),
   (.inlet, [[(75, 1)]]),
   (.outlet 71 0, []),
   (.obj, [[], [(74, 0)]]),
   (.obj, [[(71, 1)]]),
   (.seq [some .float, some .float], [[(84, 0)], [(76, 1)]]),
   (.graph [81, 82], [[(70, 0)]]),
   (.obj, [[(80, 0)]])]

/-- kinds and connections (part 5) -/
def s5 : Shape :=
  [(.outlet 78 0, []),
   (.inlet, [[(79, 0)]]),
   (.inlet, [[(79, 1)]]),
   (.obj, [[(78, 0)]]),
   (.obj, [[(78, 0)]]),
   (.outlet 68 0, []),
   (.graph [87, 88], [[], [(77, 0)]]),
   (.inlet, [[(92, 0)]]),
   (.inlet, [[(91, 1)]]),
   (.outlet 86 0, []),
   (.outlet 86 1, []),
   (.obj, [[(93, 1)]]),
   (.seq [none, none], [[(93, 0)], [(91, 0)]]),
   (.obj, [[(89, 0)], [(90, 0)]]),
   (.graph [95, 101], [[(86, 0)]]),
   (.inlet, [[(96, 0)]])]

/-- kinds and connections (part 6) -/
def s6 : Shape :=
  [(.graph [99, 100], [[(107, 0)]]),
   (.obj, [[(98, 0)]]),
   (.outlet 96 0, []),
   (.inlet, [[(97, 0)]]),
   (.inlet, [[(97, 1)]]),
   (.inlet, [[(96, 1)]]),
   (.outlet 94 0, []),
   (.obj, [[(106, 0)], [(105, 0)]]),
   (.obj, [[(103, 1)]]),
   (.obj, [[(102, 0)]]),
   (.obj, [[(102, 0)]]),
   (.seq [none, none], [[(103, 0)], [(104, 0)]]),
   (.seq [some .float, some .float], [[(83, 0)], [(85, 0)]]),
   (.obj, [[(68, 0)]]),
   (.seq [some .float, some .float, some .float, some .float], [[(170, 0)], [(112, 0)], [(134, 0)], [(156, 1)]]),
   (.obj, [[(271, 0), (156, 0)]])]

/-- kinds and connections (part 7) -/
def s7 : Shape :=
  [(.graph [113], [[(194, 0)]]),
   (.inlet, [[(116, 0)]]),
   (.outlet 112 0, []),
   (.obj, [[(114, 0)]]),
   (.graph [117, 118], [[(115, 1)], [(125, 0)]]),
   (.inlet, [[(119, 0)]]),
   (.inlet, [[]]),
   (.obj, [[(121, 0)], [(120, 0)]]),
   (.outlet 116 1, []),
   (.obj, [[(122, 0)], [(122, 0)]]),
   (.outlet 116 0, []),
   (.obj, [[(133, 0)]]),
   (.obj, [[(131, 0)]]),
   (.seq [some .float, some .bang], [[(124, 0)], [(126, 0)]]),
   (.graph [127, 130], [[(132, 0)]]),
   (.inlet, [[(129, 0)]])]

/-- kinds and connections (part 8) -/
def s8 : Shape :=
  [(.outlet 126 0, []),
   (.obj, [[(128, 0)]]),
   (.inlet, [[(129, 1)]]),
   (.obj, [[(115, 0)]]),
   (.obj, [[(123, 0)]]),
   (.obj, [[(131, 1)]]),
   (.graph [135], [[(215, 0)]]),
   (.inlet, [[(138, 0)]]),
   (.outlet 134 0, []),
   (.obj, [[(136, 0)]]),
   (.graph [139, 140], [[(137, 1)], [(147, 0)]]),
   (.inlet, [[(141, 0)]]),
   (.inlet, [[]]),
   (.obj, [[(143, 0)], [(142, 0)]]),
   (.outlet 138 1, []),
   (.obj, [[(144, 0)], [(144, 0)]])]

/-- kinds and connections (part 9) -/
def s9 : Shape :=
  [(.outlet 138 0, []),
   (.obj, [[(155, 0)]]),
   (.obj, [[(153, 0)]]),
   (.seq [some .float, some .bang], [[(146, 0)], [(148, 0)]]),
   (.graph [149, 152], [[(154, 0)]]),
   (.inlet, [[(151, 0)]]),
   (.outlet 148 0, []),
   (.obj, [[(150, 0)]]),
   (.inlet, [[(151, 1)]]),
   (.obj, [[(137, 0)]]),
   (.obj, [[(145, 0)]]),
   (.obj, [[(153, 1)]]),
   (.graph [159, 160], [[(221, 1), (233, 1), (255, 1)]]),
   (.obj, [[(158, 0)]]),
   (.outlet 156 0, []),
   (.inlet, [[(157, 0)]])]

/-- kinds and connections (part 10) -/
def s10 : Shape :=
  [(.inlet, [[(157, 1)]]),
   (.obj, [[(271, 0)]]),
   (.seq [none, none, some .bang, some .bang], [[(216, 0)], [(163, 0)], [(111, 0)], [(196, 0)]]),
   (.graph [164], [[(169, 0)], []]),
   (.inlet, [[(165, 0), (167, 0)]]),
   (.obj, [[(166, 0)], []]),
   (.outlet 163 1, []),
   (.obj, [[(168, 0)], []]),
   (.outlet 163 0, []),
   (.seq [some .bang, some .float], [[(109, 0)], [(192, 1)]]),
   (.graph [171], [[(192, 0)]]),
   (.inlet, [[(174, 0)]]),
   (.outlet 170 0, []),
   (.obj, [[(172, 0)]]),
   (.graph [175, 176], [[(173, 1)], [(183, 0)]]),
   (.inlet, [[(177, 0)]])]

/-- kinds and connections (part 11) -/
def s11 : Shape :=
  [(.inlet, [[]]),
   (.obj, [[(179, 0)], [(178, 0)]]),
   (.outlet 174 1, []),
   (.obj, [[(180, 0)], [(180, 0)]]),
   (.outlet 174 0, []),
   (.obj, [[(191, 0)]]),
   (.obj, [[(189, 0)]]),
   (.seq [some .float, some .bang], [[(182, 0)], [(184, 0)]]),
   (.graph [185, 188], [[(190, 0)]]),
   (.inlet, [[(187, 0)]]),
   (.outlet 184 0, []),
   (.obj, [[(186, 0)]]),
   (.inlet, [[(187, 1)]]),
   (.obj, [[(173, 0)]]),
   (.obj, [[(181, 0)]]),
   (.obj, [[(189, 1)]])]

/-- kinds and connections (part 12) -/
def s12 : Shape :=
  [(.obj, [[(193, 0)]]),
   (.obj, [[(202, 0)]]),
   (.obj, [[(193, 1)]]),
   (.recv, [[(196, 1)]]),
   (.graph [199, 200], [[(201, 1)]]),
   (.obj, [[(198, 0)]]),
   (.outlet 196 0, []),
   (.inlet, [[(197, 0)]]),
   (.inlet, [[(197, 1)]]),
   (.obj, [[(194, 1)]]),
   (.graph [203, 204], [[(209, 0)], []]),
   (.inlet, [[(205, 0)]]),
   (.inlet, [[]]),
   (.obj, [[(207, 0)], [(206, 0)]]),
   (.outlet 202 1, []),
   (.cast .bang, [[(208, 0)]])]

/-- kinds and connections (part 13) -/
def s13 : Shape :=
  [(.outlet 202 0, []),
   (.seq [some .bang, some .bang, some .bang], [[(156, 0)], [(161, 0)], [(210, 0)]]),
   (.graph [213, 214], [[(201, 1)]]),
   (.obj, [[(212, 0)]]),
   (.outlet 210 0, []),
   (.inlet, [[(211, 0)]]),
   (.inlet, [[(211, 1)]]),
   (.seq [some .float, some .float], [[(201, 0)], [(210, 1)]]),
   (.graph [217, 218], [[(253, 0)]]),
   (.inlet, [[(220, 0)]]),
   (.inlet, [[(220, 1)]]),
   (.outlet 216 0, []),
   (.obj, [[], [(219, 0)]]),
   (.graph [222, 223], [[]]),
   (.inlet, [[(226, 0)]]),
   (.inlet, [[(225, 1)]])]

/-- kinds and connections (part 14) -/
def s14 : Shape :=
  [(.outlet 221 0, []),
   (.obj, [[(224, 0)]]),
   (.graph [227, 228], [[(225, 2)], [(225, 0)]]),
   (.inlet, [[(229, 0)]]),
   (.inlet, [[]]),
   (.obj, [[(231, 0)], [(230, 0)]]),
   (.outlet 226 1, []),
   (.obj, [[(232, 0)], [(232, 0)]]),
   (.outlet 226 0, []),
   (.graph [234, 235], [[]]),
   (.inlet, [[(238, 0)]]),
   (.inlet, [[(237, 1)]]),
   (.outlet 233 0, []),
   (.obj, [[(236, 0)]]),
   (.graph [239, 240], [[(237, 2)], [(237, 0)]]),
   (.inlet, [[(241, 0)]])]

/-- kinds and connections (part 15) -/
def s15 : Shape :=
  [(.inlet, [[]]),
   (.obj, [[(243, 0)], [(242, 0)]]),
   (.outlet 238 1, []),
   (.obj, [[(244, 0)], [(244, 0)]]),
   (.outlet 238 0, []),
   (.seq [some .bang, some .bang], [[(248, 0)], [(247, 0)]]),
   (.recv, [[(248, 1)]]),
   (.send 3, [[]]),
   (.graph [251, 252], [[(233, 0)]]),
   (.obj, [[(250, 0)]]),
   (.outlet 248 0, []),
   (.inlet, [[(249, 0)]]),
   (.inlet, [[(249, 1)]]),
   (.seq [none, some .bang, some .bang], [[(260, 0)], [(245, 0)], [(254, 0)]]),
   (.obj, [[(221, 0)]]),
   (.graph [258, 259], [[(67, 0)]])]

/-- kinds and connections (part 16) -/
def s16 : Shape :=
  [(.obj, [[(257, 0)]]),
   (.outlet 255 0, []),
   (.inlet, [[(256, 0)]]),
   (.inlet, [[(256, 1)]]),
   (.seq [some .bang, none, some .bang], [[(255, 0)], [(261, 0)], [(267, 0)]]),
   (.graph [262], [[(65, 0)], []]),
   (.inlet, [[(263, 0), (265, 0)]]),
   (.obj, [[(264, 0)], []]),
   (.outlet 261 1, []),
   (.obj, [[(266, 0)], []]),
   (.outlet 261 0, []),
   (.obj, [[(66, 0)]]),
   (.inlet, [[(270, 0)]]),
   (.inlet, [[(270, 1)]]),
   (.obj, [[(162, 0)]]),
   (.seq [none], [[(216, 1)]])]

/-- kinds and connections (part 17) -/
def s17 : Shape :=
  [(.graph [273], [[(11, 0)], [(4, 0)], [(5, 0)]]),
   (.inlet, [[(328, 0)]]),
   (.graph [275], [[(354, 0)]]),
   (.inlet, [[(300, 0)]]),
   (.seq [some .float, some .float], [[(277, 0)], [(282, 0)]]),
   (.graph [278, 279], [[(314, 0)]]),
   (.inlet, [[(281, 0)]]),
   (.inlet, [[(281, 1)]]),
   (.outlet 277 0, []),
   (.obj, [[], [(280, 0)]]),
   (.obj, [[(277, 1)]]),
   (.seq [some .float, some .float], [[(290, 0)], [(282, 1)]]),
   (.graph [287, 288], [[(276, 0)]]),
   (.obj, [[(286, 0)]]),
   (.outlet 284 0, []),
   (.inlet, [[(285, 0)]])]

/-- kinds and connections (part 18) -/
def s18 : Shape :=
  [(.inlet, [[(285, 1)]]),
   (.obj, [[(284, 0)]]),
   (.obj, [[(284, 0)]]),
   (.outlet 274 0, []),
   (.graph [293, 294], [[], [(283, 0)]]),
   (.inlet, [[(298, 0)]]),
   (.inlet, [[(297, 1)]]),
   (.outlet 292 0, []),
   (.outlet 292 1, []),
   (.obj, [[(299, 1)]]),
   (.seq [none, none], [[(299, 0)], [(297, 0)]]),
   (.obj, [[(295, 0)], [(296, 0)]]),
   (.graph [301, 307], [[(292, 0)]]),
   (.inlet, [[(302, 0)]]),
   (.graph [305, 306], [[(313, 0)]]),
   (.obj, [[(304, 0)]])]

/-- kinds and connections (part 19) -/
def s19 : Shape :=
  [(.outlet 302 0, []),
   (.inlet, [[(303, 0)]]),
   (.inlet, [[(303, 1)]]),
   (.inlet, [[(302, 1)]]),
   (.outlet 300 0, []),
   (.obj, [[(312, 0)], [(311, 0)]]),
   (.obj, [[(309, 1)]]),
   (.obj, [[(308, 0)]]),
   (.obj, [[(308, 0)]]),
   (.seq [none, none], [[(309, 0)], [(310, 0)]]),
   (.seq [some .float, some .float], [[(289, 0)], [(291, 0)]]),
   (.obj, [[(274, 0)]]),
   (.graph [317, 318], [[]]),
   (.inlet, [[(321, 0)]]),
   (.inlet, [[(320, 1)]]),
   (.outlet 316 0, [])]

/-- kinds and connections (part 20) -/
def s20 : Shape :=
  [(.obj, [[(319, 0)]]),
   (.graph [322, 323], [[(320, 2)], [(320, 0)]]),
   (.inlet, [[(324, 0)]]),
   (.inlet, [[]]),
   (.obj, [[(326, 0)], [(325, 0)]]),
   (.outlet 321 1, []),
   (.obj, [[(327, 0)], [(327, 0)]]),
   (.outlet 321 0, []),
   (.seq [some .bang, some .bang], [[(315, 0)], [(329, 0)]]),
   (.obj, [[(330, 0)]]),
   (.send 3, [[]]),
   (.graph [332], [[(353, 0)]]),
   (.inlet, [[(335, 0)]]),
   (.outlet 331 0, []),
   (.obj, [[(333, 0)]]),
   (.graph [336, 337], [[(334, 1)], [(344, 0)]])]

/-- kinds and connections (part 21) -/
def s21 : Shape :=
  [(.inlet, [[(338, 0)]]),
   (.inlet, [[]]),
   (.obj, [[(340, 0)], [(339, 0)]]),
   (.outlet 335 1, []),
   (.obj, [[(341, 0)], [(341, 0)]]),
   (.outlet 335 0, []),
   (.obj, [[(352, 0)]]),
   (.obj, [[(350, 0)]]),
   (.seq [some .float, some .bang], [[(343, 0)], [(345, 0)]]),
   (.graph [346, 349], [[(351, 0)]]),
   (.inlet, [[(348, 0)]]),
   (.outlet 345 0, []),
   (.obj, [[(347, 0)]]),
   (.inlet, [[(348, 1)]]),
   (.obj, [[(334, 0)]]),
   (.obj, [[(342, 0)]])]

/-- kinds and connections (part 22) -/
def s22 : Shape :=
  [(.obj, [[(350, 1)]]),
   (.obj, [[(355, 1)]]),
   (.seq [some .float, some .float], [[(355, 0)], [(331, 0)]]),
   (.graph [356, 357], [[(386, 0)]]),
   (.inlet, [[(359, 0)]]),
   (.inlet, [[(359, 1)]]),
   (.outlet 355 0, []),
   (.obj, [[], [(358, 0)]]),
   (.outlet 272 0, []),
   (.outlet 272 1, []),
   (.outlet 272 2, []),
   (.obj, [[(362, 0)]]),
   (.graph [365], [[(361, 0)]]),
   (.inlet, [[(368, 0)]]),
   (.outlet 364 0, []),
   (.obj, [[(366, 0)]])]

/-- kinds and connections (part 23) -/
def s23 : Shape :=
  [(.graph [369, 370], [[(367, 1)], [(377, 0)]]),
   (.inlet, [[(371, 0)]]),
   (.inlet, [[]]),
   (.obj, [[(373, 0)], [(372, 0)]]),
   (.outlet 368 1, []),
   (.obj, [[(374, 0)], [(374, 0)]]),
   (.outlet 368 0, []),
   (.obj, [[(385, 0)]]),
   (.obj, [[(383, 0)]]),
   (.seq [some .float, some .bang], [[(376, 0)], [(378, 0)]]),
   (.graph [379, 382], [[(384, 0)]]),
   (.inlet, [[(381, 0)]]),
   (.outlet 378 0, []),
   (.obj, [[(380, 0)]]),
   (.inlet, [[(381, 1)]]),
   (.obj, [[(367, 0)]])]

/-- kinds and connections (part 24) -/
def s24 : Shape :=
  [(.obj, [[(375, 0)]]),
   (.obj, [[(383, 1)]]),
   (.seq [some .bang, some .float, some .float, some .float, some .bang], [[(389, 0)], [(387, 0)], [(360, 0)], [(364, 0)], [(363, 0)]]),
   (.seq [some .bang, some .float], [[(388, 0)], [(316, 1)]]),
   (.obj, [[(316, 0)]]),
   (.send 3, [[]]),
   (.graph [391], []),
   (.inlet, [[(459, 0)]]),
   (.graph [393], [[(463, 0)]]),
   (.inlet, [[(418, 0)]]),
   (.seq [some .float, some .float], [[(395, 0)], [(400, 0)]]),
   (.graph [396, 397], [[(432, 0)]]),
   (.inlet, [[(399, 0)]]),
   (.inlet, [[(399, 1)]]),
   (.outlet 395 0, []),
   (.obj, [[], [(398, 0)]])]

/-- kinds and connections (part 25) -/
def s25 : Shape :=
  [(.obj, [[(395, 1)]]),
   (.seq [some .float, some .float], [[(408, 0)], [(400, 1)]]),
   (.graph [405, 406], [[(394, 0)]]),
   (.obj, [[(404, 0)]]),
   (.outlet 402 0, []),
   (.inlet, [[(403, 0)]]),
   (.inlet, [[(403, 1)]]),
   (.obj, [[(402, 0)]]),
   (.obj, [[(402, 0)]]),
   (.outlet 392 0, []),
   (.graph [411, 412], [[], [(401, 0)]]),
   (.inlet, [[(416, 0)]]),
   (.inlet, [[(415, 1)]]),
   (.outlet 410 0, []),
   (.outlet 410 1, []),
   (.obj, [[(417, 1)]])]

/-- kinds and connections (part 26) -/
def s26 : Shape :=
  [(.seq [none, none], [[(417, 0)], [(415, 0)]]),
   (.obj, [[(413, 0)], [(414, 0)]]),
   (.graph [419, 425], [[(410, 0)]]),
   (.inlet, [[(420, 0)]]),
   (.graph [423, 424], [[(431, 0)]]),
   (.obj, [[(422, 0)]]),
   (.outlet 420 0, []),
   (.inlet, [[(421, 0)]]),
   (.inlet, [[(421, 1)]]),
   (.inlet, [[(420, 1)]]),
   (.outlet 418 0, []),
   (.obj, [[(430, 0)], [(429, 0)]]),
   (.obj, [[(427, 1)]]),
   (.obj, [[(426, 0)]]),
   (.obj, [[(426, 0)]]),
   (.seq [none, none], [[(427, 0)], [(428, 0)]])]

/-- kinds and connections (part 27) -/
def s27 : Shape :=
  [(.seq [some .float, some .float], [[(407, 0)], [(409, 0)]]),
   (.obj, [[(392, 0)]]),
   (.graph [435, 436], [[]]),
   (.inlet, [[(439, 0)]]),
   (.inlet, [[(438, 1)]]),
   (.outlet 434 0, []),
   (.obj, [[(437, 0)]]),
   (.graph [440, 441], [[(438, 2)], [(438, 0)]]),
   (.inlet, [[(442, 0)]]),
   (.inlet, [[]]),
   (.obj, [[(444, 0)], [(443, 0)]]),
   (.outlet 439 1, []),
   (.obj, [[(445, 0)], [(445, 0)]]),
   (.outlet 439 0, []),
   (.graph [447, 448], [[]]),
   (.inlet, [[(451, 0)]])]

/-- kinds and connections (part 28) -/
def s28 : Shape :=
  [(.inlet, [[(450, 1)]]),
   (.outlet 446 0, []),
   (.obj, [[(449, 0)]]),
   (.graph [452, 453], [[(450, 2)], [(450, 0)]]),
   (.inlet, [[(454, 0)]]),
   (.inlet, [[]]),
   (.obj, [[(456, 0)], [(455, 0)]]),
   (.outlet 451 1, []),
   (.obj, [[(457, 0)], [(457, 0)]]),
   (.outlet 451 0, []),
   (.obj, [[(462, 0)]]),
   (.seq [some .bang, some .bang], [[(433, 0)], [(460, 0)]]),
   (.obj, [[(461, 0)]]),
   (.send 3, [[]]),
   (.seq [none, none, none], [[(434, 0)], [(446, 0)], [(464, 0)]]),
   (.seq [some .bang, none, none, none], [[(458, 0)], [(434, 1)], [(446, 1)], [(464, 1)]])]

/-- kinds and connections (part 29) -/
def s29 : Shape :=
  [(.graph [465, 466], [[]]),
   (.inlet, [[(469, 0)]]),
   (.inlet, [[(468, 1)]]),
   (.outlet 464 0, []),
   (.obj, [[(467, 0)]]),
   (.graph [470, 471], [[(468, 2)], [(468, 0)]]),
   (.inlet, [[(472, 0)]]),
   (.inlet, [[]]),
   (.obj, [[(474, 0)], [(473, 0)]]),
   (.outlet 469 1, []),
   (.obj, [[(475, 0)], [(475, 0)]]),
   (.outlet 469 0, []),
   (.graph [809, 810], [[(11, 0)], [(4, 0)], [(5, 0)]]),
   (.graph [478], [[(533, 0)]]),
   (.inlet, [[(503, 0)]]),
   (.seq [some .float, some .float], [[(480, 0)], [(485, 0)]])]

/-- kinds and connections (part 30) -/
def s30 : Shape :=
  [(.graph [481, 482], [[(517, 0)]]),
   (.inlet, [[(484, 0)]]),
   (.inlet, [[(484, 1)]]),
   (.outlet 480 0, []),
   (.obj, [[], [(483, 0)]]),
   (.obj, [[(480, 1)]]),
   (.seq [some .float, some .float], [[(493, 0)], [(485, 1)]]),
   (.graph [490, 491], [[(479, 0)]]),
   (.obj, [[(489, 0)]]),
   (.outlet 487 0, []),
   (.inlet, [[(488, 0)]]),
   (.inlet, [[(488, 1)]]),
   (.obj, [[(487, 0)]]),
   (.obj, [[(487, 0)]]),
   (.outlet 477 0, []),
   (.graph [496, 497], [[], [(486, 0)]])]

/-- kinds and connections (part 31) -/
def s31 : Shape :=
  [(.inlet, [[(501, 0)]]),
   (.inlet, [[(500, 1)]]),
   (.outlet 495 0, []),
   (.outlet 495 1, []),
   (.obj, [[(502, 1)]]),
   (.seq [none, none], [[(502, 0)], [(500, 0)]]),
   (.obj, [[(498, 0)], [(499, 0)]]),
   (.graph [504, 510], [[(495, 0)]]),
   (.inlet, [[(505, 0)]]),
   (.graph [508, 509], [[(516, 0)]]),
   (.obj, [[(507, 0)]]),
   (.outlet 505 0, []),
   (.inlet, [[(506, 0)]]),
   (.inlet, [[(506, 1)]]),
   (.inlet, [[(505, 1)]]),
   (.outlet 503 0, [])]

/-- kinds and connections (part 32) -/
def s32 : Shape :=
  [(.obj, [[(515, 0)], [(514, 0)]]),
   (.obj, [[(512, 1)]]),
   (.obj, [[(511, 0)]]),
   (.obj, [[(511, 0)]]),
   (.seq [none, none], [[(512, 0)], [(513, 0)]]),
   (.seq [some .float, some .float], [[(492, 0)], [(494, 0)]]),
   (.obj, [[(477, 0)]]),
   (.obj, [[(543, 0)]]),
   (.obj, [[(541, 1)]]),
   (.graph [522, 523], [[(579, 0)], []]),
   (.inlet, [[(524, 0)]]),
   (.inlet, [[]]),
   (.obj, [[(526, 0)], [(525, 0)]]),
   (.outlet 521 1, []),
   (.cast .bang, [[(527, 0)]]),
   (.outlet 521 0, [])]

/-- kinds and connections (part 33) -/
def s33 : Shape :=
  [(.graph [531, 532], [[(534, 0)]]),
   (.obj, [[(530, 0)]]),
   (.outlet 528 0, []),
   (.inlet, [[(529, 0)]]),
   (.inlet, [[(529, 1)]]),
   (.seq [some .float, some .float, some .float, some .float], [[], [(647, 0)], [(669, 0)], [(528, 1), (545, 1)]]),
   (.send 5, [[]]),
   (.seq [some .float, some .float], [[(542, 0)], [(519, 0)]]),
   (.graph [537, 538], [[(554, 0)]]),
   (.inlet, [[(540, 0)]]),
   (.inlet, [[(540, 1)]]),
   (.outlet 536 0, []),
   (.obj, [[], [(539, 0)]]),
   (.obj, [[(536, 0)]]),
   (.obj, [[(541, 0)]]),
   (.seq [some .float, some .float], [[(544, 0)], [(521, 0)]])]

/-- kinds and connections (part 34) -/
def s34 : Shape :=
  [(.obj, [[(536, 1)]]),
   (.graph [548, 549], [[(550, 0)]]),
   (.obj, [[(547, 0)]]),
   (.outlet 545 0, []),
   (.inlet, [[(546, 0)]]),
   (.inlet, [[(546, 1)]]),
   (.send 6, [[]]),
   (.send 5, [[]]),
   (.send 6, [[]]),
   (.seq [none, some .bang, some .bang, some .bang], [[(598, 0)], [(518, 0)], [(796, 0)], [(580, 0)]]),
   (.graph [555, 556], [[(575, 0)], []]),
   (.inlet, [[(557, 0)]]),
   (.inlet, [[]]),
   (.obj, [[(559, 0)], [(558, 0)]]),
   (.outlet 554 1, []),
   (.cast .bang, [[(560, 0)]])]

/-- kinds and connections (part 35) -/
def s35 : Shape :=
  [(.outlet 554 0, []),
   (.obj, [[(519, 1)]]),
   (.graph [565, 566], [[(520, 1)]]),
   (.obj, [[(564, 0)]]),
   (.outlet 562 0, []),
   (.inlet, [[(563, 0)]]),
   (.inlet, [[(563, 1)]]),
   (.seq [some .float, some .float, some .float], [[(520, 0)], [(561, 0)], [(562, 1), (568, 1)]]),
   (.graph [571, 572], [[(561, 1)]]),
   (.obj, [[(570, 0)]]),
   (.outlet 568 0, []),
   (.inlet, [[(569, 0)]]),
   (.inlet, [[(569, 1)]]),
   (.seq [some .float, some .float], [[(562, 0)], [(568, 0)]]),
   (.send 7, [[]]),
   (.seq [some .bang, some .bang, some .bang], [[(545, 0)], [(576, 0)], [(562, 0)]])]

/-- kinds and connections (part 36) -/
def s36 : Shape :=
  [(.obj, [[(574, 0)]]),
   (.obj, [[(578, 0)]]),
   (.send 8, [[]]),
   (.seq [some .bang, some .bang, some .bang], [[(528, 0)], [(577, 0)], [(568, 0)]]),
   (.obj, [[(552, 0), (551, 0), (581, 0), (582, 0)]]),
   (.send 8, [[]]),
   (.send 7, [[]]),
   (.recv, [[(589, 0)]]),
   (.graph [585, 586], [[(638, 0)]]),
   (.inlet, [[(588, 0)]]),
   (.inlet, [[(588, 1)]]),
   (.outlet 584 0, []),
   (.obj, [[], [(587, 0)]]),
   (.seq [some .float, some .float], [[(584, 1)], [(597, 0)]]),
   (.recv, [[(782, 0)]]),
   (.graph [592, 593], [[(781, 0)]])]

/-- kinds and connections (part 37) -/
def s37 : Shape :=
  [(.inlet, [[(595, 0)]]),
   (.inlet, [[(595, 1)]]),
   (.outlet 591 0, []),
   (.obj, [[], [(594, 0)]]),
   (.obj, [[(625, 0)]]),
   (.obj, [[(811, 0)]]),
   (.obj, [[(599, 0)]]),
   (.seq [none, none], [[(584, 0)], [(591, 0)]]),
   (.outlet 476 1, []),
   (.outlet 476 2, []),
   (.recv, [[(621, 0)]]),
   (.graph [606, 607], [[(630, 0)]]),
   (.obj, [[(605, 0)]]),
   (.outlet 603 0, []),
   (.inlet, [[(604, 0)]]),
   (.inlet, [[(604, 1)]])]

/-- kinds and connections (part 38) -/
def s38 : Shape :=
  [(.graph [609], [[(808, 0)], [(601, 0)]]),
   (.inlet, [[(610, 0), (612, 0)]]),
   (.obj, [[(611, 0)], []]),
   (.outlet 608 1, []),
   (.obj, [[(613, 0)], []]),
   (.outlet 608 0, []),
   (.recv, [[(620, 0)]]),
   (.graph [618, 619], [[(630, 0)]]),
   (.obj, [[(617, 0)]]),
   (.outlet 615 0, []),
   (.inlet, [[(616, 0)]]),
   (.inlet, [[(616, 1)]]),
   (.seq [none, none, none, none], [[(615, 1), (631, 1)], [(761, 1)], [(783, 1)], [(691, 1)]]),
   (.seq [none, none, none, none], [[(737, 1)], [(725, 1)], [(749, 1)], [(603, 1)]]),
   (.obj, [[(737, 0)]]),
   (.obj, [[(783, 0)]])]

/-- kinds and connections (part 39) -/
def s39 : Shape :=
  [(.recv, [[(625, 1)]]),
   (.graph [626, 627], [[(591, 1)]]),
   (.inlet, [[(629, 0)]]),
   (.inlet, [[(629, 1)]]),
   (.outlet 625 0, []),
   (.obj, [[], [(628, 0)]]),
   (.outlet 476 0, []),
   (.graph [634, 635], [[(703, 0)]]),
   (.obj, [[(633, 0)]]),
   (.outlet 631 0, []),
   (.inlet, [[(632, 0)]]),
   (.inlet, [[(632, 1)]]),
   (.seq [some .bang, some .bang, some .bang], [[(615, 0)], [(631, 0)], [(637, 0)]]),
   (.obj, [[(601, 0)]]),
   (.seq [some .bang, some .bang, some .bang, none], [[(639, 0)], [(622, 0)], [(603, 0)], [(608, 0)]]),
   (.seq [some .bang, some .bang], [[(642, 0)], [(641, 0)]])]

/-- kinds and connections (part 40) -/
def s40 : Shape :=
  [(.recv, [[(642, 1)]]),
   (.send 3, [[]]),
   (.graph [645, 646], [[(749, 0)]]),
   (.obj, [[(644, 0)]]),
   (.outlet 642 0, []),
   (.inlet, [[(643, 0)]]),
   (.inlet, [[(643, 1)]]),
   (.graph [648], [[(535, 0)]]),
   (.inlet, [[(651, 0)]]),
   (.outlet 647 0, []),
   (.obj, [[(649, 0)]]),
   (.graph [652, 653], [[(650, 1)], [(660, 0)]]),
   (.inlet, [[(654, 0)]]),
   (.inlet, [[]]),
   (.obj, [[(656, 0)], [(655, 0)]]),
   (.outlet 651 1, [])]

/-- kinds and connections (part 41) -/
def s41 : Shape :=
  [(.obj, [[(657, 0)], [(657, 0)]]),
   (.outlet 651 0, []),
   (.obj, [[(668, 0)]]),
   (.obj, [[(666, 0)]]),
   (.seq [some .float, some .bang], [[(659, 0)], [(661, 0)]]),
   (.graph [662, 665], [[(667, 0)]]),
   (.inlet, [[(664, 0)]]),
   (.outlet 661 0, []),
   (.obj, [[(663, 0)]]),
   (.inlet, [[(664, 1)]]),
   (.obj, [[(650, 0)]]),
   (.obj, [[(658, 0)]]),
   (.obj, [[(666, 1)]]),
   (.graph [670], [[(567, 0)]]),
   (.inlet, [[(673, 0)]]),
   (.outlet 669 0, [])]

/-- kinds and connections (part 42) -/
def s42 : Shape :=
  [(.obj, [[(671, 0)]]),
   (.graph [674, 675], [[(672, 1)], [(682, 0)]]),
   (.inlet, [[(676, 0)]]),
   (.inlet, [[]]),
   (.obj, [[(678, 0)], [(677, 0)]]),
   (.outlet 673 1, []),
   (.obj, [[(679, 0)], [(679, 0)]]),
   (.outlet 673 0, []),
   (.obj, [[(690, 0)]]),
   (.obj, [[(688, 0)]]),
   (.seq [some .float, some .bang], [[(681, 0)], [(683, 0)]]),
   (.graph [684, 687], [[(689, 0)]]),
   (.inlet, [[(686, 0)]]),
   (.outlet 683 0, []),
   (.obj, [[(685, 0)]]),
   (.inlet, [[(686, 1)]])]

/-- kinds and connections (part 43) -/
def s43 : Shape :=
  [(.obj, [[(672, 0)]]),
   (.obj, [[(680, 0)]]),
   (.obj, [[(688, 1)]]),
   (.graph [692, 693], [[]]),
   (.inlet, [[(696, 0)]]),
   (.inlet, [[(695, 1)]]),
   (.outlet 691 0, []),
   (.obj, [[(694, 0)]]),
   (.graph [697, 698], [[(695, 2)], [(695, 0)]]),
   (.inlet, [[(699, 0)]]),
   (.inlet, [[]]),
   (.obj, [[(701, 0)], [(700, 0)]]),
   (.outlet 696 1, []),
   (.obj, [[(702, 0)], [(702, 0)]]),
   (.outlet 696 0, []),
   (.graph [704], [[(600, 0)]])]

/-- kinds and connections (part 44) -/
def s44 : Shape :=
  [(.inlet, [[(707, 0)]]),
   (.outlet 703 0, []),
   (.obj, [[(705, 0)]]),
   (.graph [708, 709], [[(706, 1)], [(716, 0)]]),
   (.inlet, [[(710, 0)]]),
   (.inlet, [[]]),
   (.obj, [[(712, 0)], [(711, 0)]]),
   (.outlet 707 1, []),
   (.obj, [[(713, 0)], [(713, 0)]]),
   (.outlet 707 0, []),
   (.obj, [[(724, 0)]]),
   (.obj, [[(722, 0)]]),
   (.seq [some .float, some .bang], [[(715, 0)], [(717, 0)]]),
   (.graph [718, 721], [[(723, 0)]]),
   (.inlet, [[(720, 0)]]),
   (.outlet 717 0, [])]

/-- kinds and connections (part 45) -/
def s45 : Shape :=
  [(.obj, [[(719, 0)]]),
   (.inlet, [[(720, 1)]]),
   (.obj, [[(706, 0)]]),
   (.obj, [[(714, 0)]]),
   (.obj, [[(722, 1)]]),
   (.graph [726, 727], [[]]),
   (.inlet, [[(730, 0)]]),
   (.inlet, [[(729, 1)]]),
   (.outlet 725 0, []),
   (.obj, [[(728, 0)]]),
   (.graph [731, 732], [[(729, 2)], [(729, 0)]]),
   (.inlet, [[(733, 0)]]),
   (.inlet, [[]]),
   (.obj, [[(735, 0)], [(734, 0)]]),
   (.outlet 730 1, []),
   (.obj, [[(736, 0)], [(736, 0)]])]

/-- kinds and connections (part 46) -/
def s46 : Shape :=
  [(.outlet 730 0, []),
   (.graph [738, 739], [[]]),
   (.inlet, [[(742, 0)]]),
   (.inlet, [[(741, 1)]]),
   (.outlet 737 0, []),
   (.obj, [[(740, 0)]]),
   (.graph [743, 744], [[(741, 2)], [(741, 0)]]),
   (.inlet, [[(745, 0)]]),
   (.inlet, [[]]),
   (.obj, [[(747, 0)], [(746, 0)]]),
   (.outlet 742 1, []),
   (.obj, [[(748, 0)], [(748, 0)]]),
   (.outlet 742 0, []),
   (.graph [750, 751], [[]]),
   (.inlet, [[(754, 0)]]),
   (.inlet, [[(753, 1)]])]

/-- kinds and connections (part 47) -/
def s47 : Shape :=
  [(.outlet 749 0, []),
   (.obj, [[(752, 0)]]),
   (.graph [755, 756], [[(753, 2)], [(753, 0)]]),
   (.inlet, [[(757, 0)]]),
   (.inlet, [[]]),
   (.obj, [[(759, 0)], [(758, 0)]]),
   (.outlet 754 1, []),
   (.obj, [[(760, 0)], [(760, 0)]]),
   (.outlet 754 0, []),
   (.graph [762, 763], [[]]),
   (.inlet, [[(766, 0)]]),
   (.inlet, [[(765, 1)]]),
   (.outlet 761 0, []),
   (.obj, [[(764, 0)]]),
   (.graph [767, 768], [[(765, 2)], [(765, 0)]]),
   (.inlet, [[(769, 0)]])]

/-- kinds and connections (part 48) -/
def s48 : Shape :=
  [(.inlet, [[]]),
   (.obj, [[(771, 0)], [(770, 0)]]),
   (.outlet 766 1, []),
   (.obj, [[(772, 0)], [(772, 0)]]),
   (.outlet 766 0, []),
   (.seq [some .bang, some .bang], [[(776, 0)], [(775, 0)]]),
   (.recv, [[(776, 1)]]),
   (.send 3, [[]]),
   (.graph [779, 780], [[(761, 0)]]),
   (.obj, [[(778, 0)]]),
   (.outlet 776 0, []),
   (.inlet, [[(777, 0)]]),
   (.inlet, [[(777, 1)]]),
   (.seq [some .bang, some .bang, some .bang, none, some .bang], [[(773, 0)], [(623, 0)], [(615, 0)], [(801, 0)], [(636, 0)]]),
   (.seq [some .bang, some .float], [[(811, 0)], [(596, 1)]]),
   (.graph [784, 785], [[]])]

/-- kinds and connections (part 49) -/
def s49 : Shape :=
  [(.inlet, [[(788, 0)]]),
   (.inlet, [[(787, 1)]]),
   (.outlet 783 0, []),
   (.obj, [[(786, 0)]]),
   (.graph [789, 790], [[(787, 2)], [(787, 0)]]),
   (.inlet, [[(791, 0)]]),
   (.inlet, [[]]),
   (.obj, [[(793, 0)], [(792, 0)]]),
   (.outlet 788 1, []),
   (.obj, [[(794, 0)], [(794, 0)]]),
   (.outlet 788 0, []),
   (.recv, [[(796, 1)]]),
   (.graph [799, 800], [[(573, 0)]]),
   (.obj, [[(798, 0)]]),
   (.outlet 796 0, []),
   (.inlet, [[(797, 0)]])]

/-- kinds and connections (part 50) -/
def s50 : Shape :=
  [(.inlet, [[(797, 1)]]),
   (.graph [802], [[(807, 0)], [(601, 0)]]),
   (.inlet, [[(803, 0), (805, 0)]]),
   (.obj, [[(804, 0)], []]),
   (.outlet 801 1, []),
   (.obj, [[(806, 0)], []]),
   (.outlet 801 0, []),
   (.seq [none, none], [[(600, 0)], [(691, 0)]]),
   (.seq [none, none], [[(600, 0)], [(725, 0)]]),
   (.inlet, [[(553, 0)]]),
   (.inlet, [[(598, 1)]]),
   (.graph [814, 815], [[(596, 0)]]),
   (.obj, [[(813, 0)]]),
   (.outlet 811 0, []),
   (.inlet, [[(812, 0)]]),
   (.inlet, [[(812, 1)]])]

/-- kinds and connections (part 51) -/
def s51 : Shape :=
  [(.obj, []),
   (.obj, []),
   (.obj, []),
   (.obj, [[(0, 0)]]),
   (.obj, [[(0, 1)]])]

def shapeT : Tree (Kind × List (List Dest)) :=
  (.fork 416 (.fork 208 (.fork 96 (.fork 48 (.fork 16 (.leaf s0) (.fork 16 (.leaf s1) (.leaf s2))) (.fork 16 (.leaf s3) (.fork 16 (.leaf s4) (.leaf s5)))) (.fork 48 (.fork 16 (.leaf s6) (.fork 16 (.leaf s7) (.leaf s8))) (.fork 32 (.fork 16 (.leaf s9) (.leaf s10)) (.fork 16 (.leaf s11) (.leaf s12))))) (.fork 96 (.fork 48 (.fork 16 (.leaf s13) (.fork 16 (.leaf s14) (.leaf s15))) (.fork 16 (.leaf s16) (.fork 16 (.leaf s17) (.leaf s18)))) (.fork 48 (.fork 16 (.leaf s19) (.fork 16 (.leaf s20) (.leaf s21))) (.fork 32 (.fork 16 (.leaf s22) (.leaf s23)) (.fork 16 (.leaf s24) (.leaf s25)))))) (.fork 208 (.fork 96 (.fork 48 (.fork 16 (.leaf s26) (.fork 16 (.leaf s27) (.leaf s28))) (.fork 16 (.leaf s29) (.fork 16 (.leaf s30) (.leaf s31)))) (.fork 48 (.fork 16 (.leaf s32) (.fork 16 (.leaf s33) (.leaf s34))) (.fork 32 (.fork 16 (.leaf s35) (.leaf s36)) (.fork 16 (.leaf s37) (.leaf s38))))) (.fork 96 (.fork 48 (.fork 16 (.leaf s39) (.fork 16 (.leaf s40) (.leaf s41))) (.fork 16 (.leaf s42) (.fork 16 (.leaf s43) (.leaf s44)))) (.fork 48 (.fork 16 (.leaf s45) (.fork 16 (.leaf s46) (.leaf s47))) (.fork 32 (.fork 16 (.leaf s48) (.leaf s49)) (.fork 16 (.leaf s50) (.leaf s51)))))))

/-- how long chains of [trigger]s are -/
def ranks : Tree Nat :=
  (.fork 416 (.fork 208 (.fork 96 (.fork 48 (.fork 16 (.leaf [0, 0, 0, 0, 0, 0, 0, 0, 0, 0, 0, 0, 0, 0, 0, 0]) (.fork 16 (.leaf [0, 0, 0, 0, 0, 0, 1, 0, 0, 0, 0, 0, 0, 0, 0, 0]) (.leaf [0, 0, 0, 0, 0, 0, 0, 0, 0, 0, 0, 0, 0, 0, 0, 0]))) (.fork 16 (.leaf [1, 0, 0, 0, 0, 0, 1, 0, 0, 0, 0, 0, 0, 1, 0, 0]) (.fork 16 (.leaf [0, 0, 0, 0, 0, 0, 1, 0, 0, 0, 0, 0, 0, 1, 0, 0]) (.leaf [0, 0, 0, 0, 0, 0, 0, 0, 0, 0, 0, 0, 1, 0, 0, 0])))) (.fork 48 (.fork 16 (.leaf [0, 0, 0, 0, 0, 0, 0, 0, 0, 0, 0, 1, 1, 0, 1, 0]) (.fork 16 (.leaf [0, 0, 0, 0, 0, 0, 0, 0, 0, 0, 0, 0, 0, 1, 0, 0]) (.leaf [0, 0, 0, 0, 0, 0, 0, 0, 0, 0, 0, 0, 0, 0, 0, 0]))) (.fork 32 (.fork 16 (.leaf [0, 0, 0, 1, 0, 0, 0, 0, 0, 0, 0, 0, 0, 0, 0, 0]) (.leaf [0, 0, 1, 0, 0, 0, 0, 0, 0, 1, 0, 0, 0, 0, 0, 0])) (.fork 16 (.leaf [0, 0, 0, 0, 0, 0, 0, 1, 0, 0, 0, 0, 0, 0, 0, 0]) (.leaf [0, 0, 0, 0, 0, 0, 0, 0, 0, 0, 0, 0, 0, 0, 0, 0]))))) (.fork 96 (.fork 48 (.fork 16 (.leaf [0, 1, 0, 0, 0, 0, 0, 1, 0, 0, 0, 0, 0, 0, 0, 0]) (.fork 16 (.leaf [0, 0, 0, 0, 0, 0, 0, 0, 0, 0, 0, 0, 0, 0, 0, 0]) (.leaf [0, 0, 0, 0, 0, 1, 0, 0, 0, 0, 0, 0, 0, 2, 0, 0]))) (.fork 16 (.leaf [0, 0, 0, 0, 1, 0, 0, 0, 0, 0, 0, 0, 0, 0, 0, 1]) (.fork 16 (.leaf [0, 0, 0, 0, 1, 0, 0, 0, 0, 0, 0, 1, 0, 0, 0, 0]) (.leaf [0, 0, 0, 0, 0, 0, 0, 0, 0, 0, 1, 0, 0, 0, 0, 0])))) (.fork 48 (.fork 16 (.leaf [0, 0, 0, 0, 0, 0, 0, 0, 0, 1, 1, 0, 0, 0, 0, 0]) (.fork 16 (.leaf [0, 0, 0, 0, 0, 0, 0, 0, 1, 0, 0, 0, 0, 0, 0, 0]) (.leaf [0, 0, 0, 0, 0, 0, 0, 0, 1, 0, 0, 0, 0, 0, 0, 0]))) (.fork 32 (.fork 16 (.leaf [0, 0, 1, 0, 0, 0, 0, 0, 0, 0, 0, 0, 0, 0, 0, 0]) (.leaf [0, 0, 0, 0, 0, 0, 0, 0, 0, 1, 0, 0, 0, 0, 0, 0])) (.fork 16 (.leaf [0, 0, 2, 1, 0, 0, 0, 0, 0, 0, 1, 0, 0, 0, 0, 0]) (.leaf [0, 1, 0, 0, 0, 0, 0, 0, 0, 0, 0, 0, 0, 0, 0, 0])))))) (.fork 208 (.fork 96 (.fork 48 (.fork 16 (.leaf [1, 0, 0, 0, 0, 0, 0, 0, 0, 0, 0, 0, 0, 0, 0, 1]) (.fork 16 (.leaf [1, 0, 0, 0, 0, 0, 0, 0, 0, 0, 0, 0, 0, 0, 0, 0]) (.leaf [0, 0, 0, 0, 0, 0, 0, 0, 0, 0, 0, 1, 0, 0, 1, 1]))) (.fork 16 (.leaf [0, 0, 0, 0, 0, 0, 0, 0, 0, 0, 0, 0, 0, 0, 0, 1]) (.fork 16 (.leaf [0, 0, 0, 0, 0, 0, 1, 0, 0, 0, 0, 0, 0, 0, 0, 0]) (.leaf [0, 0, 0, 0, 0, 1, 0, 0, 0, 0, 0, 0, 0, 0, 0, 0])))) (.fork 48 (.fork 16 (.leaf [0, 0, 0, 0, 1, 1, 0, 0, 0, 0, 0, 0, 0, 0, 0, 0]) (.fork 16 (.leaf [0, 0, 0, 0, 0, 1, 0, 1, 0, 0, 0, 0, 0, 0, 0, 1]) (.leaf [0, 0, 0, 0, 0, 0, 0, 0, 0, 1, 0, 0, 0, 0, 0, 0]))) (.fork 32 (.fork 16 (.leaf [0, 0, 0, 0, 0, 0, 0, 1, 0, 0, 0, 0, 0, 1, 0, 1]) (.leaf [0, 0, 0, 1, 0, 0, 0, 0, 0, 0, 0, 0, 0, 1, 0, 0])) (.fork 16 (.leaf [0, 0, 0, 0, 0, 0, 0, 1, 0, 0, 0, 0, 0, 0, 0, 0]) (.leaf [0, 0, 0, 0, 0, 0, 0, 0, 0, 0, 0, 0, 1, 1, 0, 0]))))) (.fork 96 (.fork 48 (.fork 16 (.leaf [0, 0, 0, 0, 0, 0, 0, 0, 0, 0, 0, 0, 1, 0, 2, 1]) (.fork 16 (.leaf [0, 0, 0, 0, 0, 0, 0, 0, 0, 0, 0, 0, 0, 0, 0, 0]) (.leaf [0, 0, 0, 0, 1, 0, 0, 0, 0, 0, 0, 0, 0, 0, 0, 0]))) (.fork 16 (.leaf [0, 0, 0, 0, 0, 0, 0, 0, 0, 0, 1, 0, 0, 0, 0, 0]) (.fork 16 (.leaf [0, 0, 0, 0, 0, 0, 0, 0, 0, 0, 0, 0, 0, 0, 0, 0]) (.leaf [0, 0, 0, 0, 0, 0, 0, 0, 0, 0, 0, 0, 1, 0, 0, 0])))) (.fork 48 (.fork 16 (.leaf [0, 0, 0, 0, 0, 0, 0, 0, 0, 0, 0, 0, 0, 0, 0, 0]) (.fork 16 (.leaf [0, 0, 0, 0, 0, 0, 0, 0, 0, 0, 0, 0, 0, 0, 0, 0]) (.leaf [0, 0, 0, 0, 0, 0, 0, 0, 0, 0, 0, 0, 0, 0, 0, 0]))) (.fork 32 (.fork 16 (.leaf [0, 0, 0, 0, 0, 1, 0, 0, 0, 0, 0, 0, 0, 2, 1, 0]) (.leaf [0, 0, 0, 0, 0, 0, 0, 0, 0, 0, 0, 0, 0, 0, 0, 0])) (.fork 16 (.leaf [0, 0, 0, 0, 0, 0, 0, 1, 1, 0, 0, 0, 0, 0, 0, 0]) (.leaf [0, 0, 0, 0, 0])))))))

theorem shape_eq (a1 : ℚ) (a2 : ℚ) : shapeOf (nodes a1 a2) = shapeT.toList := rfl

theorem checked (a1 : ℚ) (a2 : ℚ) : check (shapeOf (nodes a1 a2)) recvs order prio ranks.toList = true := by
  rw [shape_eq, check_tree rfl rfl]
  decide +kernel

theorem classes (a1 : ℚ) (a2 : ℚ) : clsOK (nodes a1 a2) = true := rfl

theorem drv_valid (a1 : ℚ) (a2 : ℚ) {i : Nat} (h : i < 2) (m : Msg) : (Control.Src.outlet (drv i) 0 m).Valid (mkPatch (nodes a1 a2) (recvsOf recvs) prio) (nodes a1 a2).length := by
  have : i = 0 ∨ i = 1 := by omega
  rcases this with rfl | rfl <;> exact ⟨Nat.le_of_ble_eq_true rfl, rfl, Nat.le_of_ble_eq_true rfl⟩

/-- messages for the inlets there are -/
def Inlet : Ev → Prop
  | .ext _ i _ => i < 2
  | .tick => True

theorem driven (a1 : ℚ) (a2 : ℚ) {e : Ev} (h : Inlet e) : Driven (nodes a1 a2) (recvsOf recvs) prio drv e := by
  cases e with
  | ext t i m => exact drv_valid a1 a2 h
  | tick => trivial

theorem to_code {c : Ctx} {a1 : ℚ} {a2 : ℚ} {M : Mach} (hM : Code a1 a2 c M) {tab : Nat → List ℚ} {Fits : Ev → Prop} (hf : ∀ e, Fits e → Inlet e) {σ : Type}
    {on : σ → Ev → σ} {x0 : σ} {Sim : σ → St → Prop}
    (h : Simulates (mach a1 a2 c) drv (start c (nodes a1 a2) tab) Fits on x0 Sim) :
    Simulates M drv (start c (nodes a1 a2) tab) Fits on x0 (fun x s => Sim x s ∧ GoodQ (nodes a1 a2) s) :=
  h.code (checked a1 a2) (classes a1 a2) hM fun e he => driven a1 a2 (hf e he)

/-- how far messages go through borders of subpatches and [trigger]s -/
def far : Tree (List Nat) :=
  (.fork 416 (.fork 208 (.fork 96 (.fork 48 (.fork 16 (.leaf [[2, 2], [], [], [], [1], [1], [], [], [2], [], [1], [], [], [1, 1], [], [1]]) (.fork 16 (.leaf [[], [], [], [], [], [], [1], [], [], [], [1, 0], [], [], [], [2], []]) (.leaf [[3], [], [3], [1], [], [], [2], [], [3], [1, 1], [], [3], [], [], [], []]))) (.fork 16 (.leaf [[2], [1, 1], [], [], [4], [], [2], [1, 1], [], [], [2], [], [], [2], [], []]) (.fork 16 (.leaf [[1, 1], [2], [2], [1], [3], [], [2], [1, 1], [], [], [6], [], [], [1], [1, 1], []]) (.leaf [[3], [], [], [], [], [4], [2, 1], [], [], [0], [2], [], [1], [], [2, 2], []])))) (.fork 48 (.fork 16 (.leaf [[1, 1], [], [2], [], [], [], [3], [], [], [], [], [1], [5], [], [3], []]) (.fork 16 (.leaf [[2], [], [1], [], [1, 0], [], [], [], [3], [], [1], [], [], [2], [1, 1], []]) (.leaf [[1], [], [], [], [], [], [2], [], [3], [], [1, 0], [], [], [], [3], []]))) (.fork 32 (.fork 16 (.leaf [[1], [], [], [2], [1, 1], [], [1], [], [], [], [], [], [1, 1], [], [2], []]) (.leaf [[], [], [2], [1], [], [], [0], [], [2], [1], [2], [], [1], [], [1, 0], []])) (.fork 16 (.leaf [[], [], [3], [], [1], [], [], [2], [1, 1], [], [1], [], [], [], [], []]) (.leaf [[], [], [], [], [1, 1], [], [1], [], [], [], [1, 0], [], [], [], [0], []]))))) (.fork 96 (.fork 48 (.fork 16 (.leaf [[3], [2], [1, 1], [], [1], [], [], [2], [1, 1], [], [], [4], [], [2, 1], [], []]) (.fork 16 (.leaf [[0], [], [1, 0], [], [], [], [1], [], [1], [2, 1], [], [], [0], [], [1, 0], []]) (.leaf [[], [], [1], [], [1], [2], [], [], [1, 1], [], [3], [], [], [3], [], [1, 1]]))) (.fork 16 (.leaf [[], [2], [], [], [2], [1], [], [], [0], [], [3], [], [], [], [], [2]]) (.fork 16 (.leaf [[2], [], [3], [], [2], [1, 1], [], [], [6], [], [], [1], [1, 1], [], [3], []]) (.leaf [[], [], [], [4], [2, 1], [], [], [0], [2], [], [1], [], [2, 2], [], [1, 1], []])))) (.fork 48 (.fork 16 (.leaf [[2], [], [], [], [3], [], [], [], [], [1], [5], [], [2, 1], [], [], [0]]) (.fork 16 (.leaf [[], [1, 0], [], [], [], [1], [], [1], [1], [], [], [2], [], [1], [], [1, 0]]) (.leaf [[], [], [], [3], [], [1], [], [], [2], [1, 1], [], [1], [], [], [], []]))) (.fork 32 (.fork 16 (.leaf [[], [], [3], [1, 1], [], [], [4], [], [1], [2], [2], [], [2], [], [3], []]) (.leaf [[1, 0], [], [], [], [3], [], [1], [], [], [2], [1, 1], [], [1], [], [], []])) (.fork 16 (.leaf [[], [], [3], [2], [], [], [2], [], [3], [], [2], [1, 1], [], [], [5], []]) (.leaf [[], [1], [1, 1], [], [3], [], [], [], [], [3], [2, 1], [], [], [0], [2], []])))))) (.fork 208 (.fork 96 (.fork 48 (.fork 16 (.leaf [[1], [], [2, 2], [], [1, 1], [], [2], [], [], [], [3], [], [], [], [], [1]]) (.fork 16 (.leaf [[4], [], [2, 1], [], [], [0], [], [1, 0], [], [], [], [1], [], [1], [2, 1], []]) (.leaf [[], [0], [], [1, 0], [], [], [], [1], [], [1], [], [1], [], [], [3], [2]]))) (.fork 16 (.leaf [[2, 1], [], [], [0], [], [1, 0], [], [], [], [1], [], [1], [3, 1], [3], [], [2]]) (.fork 16 (.leaf [[1, 1], [], [], [6], [], [], [1], [1, 1], [], [3], [], [], [], [], [4], [2, 1]]) (.leaf [[], [], [0], [2], [], [1], [], [2, 2], [], [1, 1], [], [2], [], [], [], [3]])))) (.fork 48 (.fork 16 (.leaf [[], [], [], [], [1], [5], [], [], [], [1, 0], [], [], [], [0], [], [3]]) (.fork 16 (.leaf [[1, 1], [], [1], [], [], [3], [], [1], [1, 1], [], [], [2], [], [], [], [2]]) (.leaf [[], [1, 1], [], [1], [], [], [], [], [], [2], [1, 0], [], [], [], [0], []]))) (.fork 32 (.fork 16 (.leaf [[3], [], [1, 1], [], [1], [], [], [2], [1, 1], [], [1], [], [], [2], [], [2]]) (.leaf [[], [], [], [2], [], [], [], [], [1, 1], [], [], [4], [], [2], [], [1, 1]])) (.fork 16 (.leaf [[], [], [4], [], [], [], [], [2], [2], [2], [], [1, 1], [], [2], [], []]) (.leaf [[1], [], [], [3], [], [4], [], [1, 1], [], [2], [], [], [2], [2], [], []]))))) (.fork 96 (.fork 48 (.fork 16 (.leaf [[], [1, 1], [], [], [2], [], [1], [1, 1], [], [3], [], [], [2], [], [3], [2]]) (.fork 16 (.leaf [[], [], [1, 1], [], [3], [], [], [2], [], [2], [], [1, 0], [], [], [], [3]]) (.leaf [[], [1], [], [], [2], [1, 1], [], [1], [], [], [], [], [], [2], [], [3]]))) (.fork 16 (.leaf [[], [1, 0], [], [], [], [3], [], [1], [], [], [2], [1, 1], [], [1], [], []]) (.fork 16 (.leaf [[], [], [], [2, 1], [], [], [0], [], [1, 0], [], [], [], [1], [], [1], [2]]) (.leaf [[], [3], [], [1, 0], [], [], [], [3], [], [1], [], [], [2], [1, 1], [], [1]])))) (.fork 48 (.fork 16 (.leaf [[], [], [], [], [], [2, 1], [], [], [0], [], [1, 0], [], [], [], [1], []]) (.fork 16 (.leaf [[1], [2, 1], [], [], [0], [], [1, 0], [], [], [], [1], [], [1], [2, 1], [], []]) (.leaf [[0], [], [1, 0], [], [], [], [1], [], [1], [2, 1], [], [], [0], [], [1, 0], []]))) (.fork 32 (.fork 16 (.leaf [[], [], [1], [], [1], [2], [], [], [1, 1], [], [3], [], [], [3], [2], [2, 1]]) (.leaf [[], [], [0], [], [1, 0], [], [], [], [1], [], [1], [], [1, 1], [], [3], []])) (.fork 16 (.leaf [[], [1], [], [], [3], [], [4], [3], [3], [], [], [1, 1], [], [1], [], []]) (.leaf [[], [], [], [], []])))))))

/-- it compiles -/
theorem code_exists (a1 : ℚ) (a2 : ℚ) (c : Ctx) : ∃ M, Code a1 a2 c M := exists_compiled_far c (checked a1 a2) (k := far) (by rw [shape_eq, total_tree rfl]; decide +kernel)

-- tables: 0 = 1-pitches (a1), 1 = 1-used (a1), 2 = 1-ids (a1)

/-! one lemma per object, for rewriting -/

theorem n0_0 (a1 : ℚ) (a2 : ℚ) (c : Ctx) (m : Msg) : (sys a1 a2 c).node (0, 0) m = .fwd false [((26, 0), m)] := by rw [sys_eq]; rfl
theorem n0_1 (a1 : ℚ) (a2 : ℚ) (c : Ctx) (m : Msg) : (sys a1 a2 c).node (0, 1) m = .fwd false [((41, 0), m)] := by rw [sys_eq]; rfl
theorem n1 (a1 : ℚ) (a2 : ℚ) (c : Ctx) (i : Nat) (m : Msg) : (sys a1 a2 c).node (1, i) m = .fwd true [((625, 1), m)] := by rw [sys_eq]; rfl
theorem n2 (a1 : ℚ) (a2 : ℚ) (c : Ctx) (i : Nat) (m : Msg) : (sys a1 a2 c).node (2, i) m = .obj (beh c (.bink .add 1) 2 i m) := by rw [sys_eq]; rfl
theorem o2_0 (a1 : ℚ) (a2 : ℚ) (c : Ctx) : (sys a1 a2 c).out 2 0 = [(13, 1)] := by rw [sys_eq]; rfl
theorem n3 (a1 : ℚ) (a2 : ℚ) (c : Ctx) (i : Nat) (m : Msg) : (sys a1 a2 c).node (3, i) m = .fwd true [((248, 1), m), ((642, 1), m), ((776, 1), m)] := by rw [sys_eq]; rfl
theorem n4 (a1 : ℚ) (a2 : ℚ) (c : Ctx) (i : Nat) (m : Msg) : (sys a1 a2 c).node (4, i) m = .fwd false [((817, 0), m)] := by rw [sys_eq]; rfl
theorem n5 (a1 : ℚ) (a2 : ℚ) (c : Ctx) (i : Nat) (m : Msg) : (sys a1 a2 c).node (5, i) m = .fwd false [((818, 0), m)] := by rw [sys_eq]; rfl
theorem n8 (a1 : ℚ) (a2 : ℚ) (c : Ctx) (i : Nat) (m : Msg) : (sys a1 a2 c).node (8, i) m = .fwd false [((22, 0), m)] := by rw [sys_eq]; rfl
theorem n9 (a1 : ℚ) (a2 : ℚ) (c : Ctx) (i : Nat) (m : Msg) : (sys a1 a2 c).node (9, i) m = .obj (beh c (.var (.float a2)) 9 i m) := by rw [sys_eq]; rfl
theorem o9_0 (a1 : ℚ) (a2 : ℚ) (c : Ctx) : (sys a1 a2 c).out 9 0 = [(63, 0)] := by rw [sys_eq]; rfl
theorem n10 (a1 : ℚ) (a2 : ℚ) (c : Ctx) (i : Nat) (m : Msg) : (sys a1 a2 c).node (10, i) m = .fwd false [((816, 0), m)] := by rw [sys_eq]; rfl
theorem n11 (a1 : ℚ) (a2 : ℚ) (c : Ctx) (i : Nat) (m : Msg) : (sys a1 a2 c).node (11, i) m = .obj (beh c (.bink .add 1) 11 i m) := by rw [sys_eq]; rfl
theorem o11_0 (a1 : ℚ) (a2 : ℚ) (c : Ctx) : (sys a1 a2 c).out 11 0 = [(10, 0)] := by rw [sys_eq]; rfl
theorem n13_0 (a1 : ℚ) (a2 : ℚ) (c : Ctx) (m : Msg) : (sys a1 a2 c).node (13, 0) m = .fwd false [((14, 0), m)] := by rw [sys_eq]; rfl
theorem n13_1 (a1 : ℚ) (a2 : ℚ) (c : Ctx) (m : Msg) : (sys a1 a2 c).node (13, 1) m = .fwd false [((14, 1), m)] := by rw [sys_eq]; rfl
theorem n14 (a1 : ℚ) (a2 : ℚ) (c : Ctx) (i : Nat) (m : Msg) : (sys a1 a2 c).node (14, i) m = .obj (beh c (.var (.float 0)) 14 i m) := by rw [sys_eq]; rfl
theorem o14_0 (a1 : ℚ) (a2 : ℚ) (c : Ctx) : (sys a1 a2 c).out 14 0 = [(15, 0)] := by rw [sys_eq]; rfl
theorem n15 (a1 : ℚ) (a2 : ℚ) (c : Ctx) (i : Nat) (m : Msg) : (sys a1 a2 c).node (15, i) m = .fwd false [((18, 0), m)] := by rw [sys_eq]; rfl
theorem n18 (a1 : ℚ) (a2 : ℚ) (c : Ctx) (i : Nat) (m : Msg) : (sys a1 a2 c).node (18, i) m = .obj (beh c (.bin .mod 65535) 18 i m) := by rw [sys_eq]; rfl
theorem o18_0 (a1 : ℚ) (a2 : ℚ) (c : Ctx) : (sys a1 a2 c).out 18 0 = [(2, 0), (3, 0)] := by rw [sys_eq]; rfl
theorem n19 (a1 : ℚ) (a2 : ℚ) (c : Ctx) (i : Nat) (m : Msg) : (sys a1 a2 c).node (19, i) m = .obj (beh c (.none) 19 i m) := by rw [sys_eq]; rfl
theorem o19_0 (a1 : ℚ) (a2 : ℚ) (c : Ctx) : (sys a1 a2 c).out 19 0 = [] := by rw [sys_eq]; rfl
theorem n20 (a1 : ℚ) (a2 : ℚ) (c : Ctx) (i : Nat) (m : Msg) : (sys a1 a2 c).node (20, i) m = .obj (beh c (.none) 20 i m) := by rw [sys_eq]; rfl
theorem o20_0 (a1 : ℚ) (a2 : ℚ) (c : Ctx) : (sys a1 a2 c).out 20 0 = [] := by rw [sys_eq]; rfl
theorem n21 (a1 : ℚ) (a2 : ℚ) (c : Ctx) (i : Nat) (m : Msg) : (sys a1 a2 c).node (21, i) m = .obj (beh c (.none) 21 i m) := by rw [sys_eq]; rfl
theorem o21_0 (a1 : ℚ) (a2 : ℚ) (c : Ctx) : (sys a1 a2 c).out 21 0 = [] := by rw [sys_eq]; rfl
theorem n22 (a1 : ℚ) (a2 : ℚ) (c : Ctx) (i : Nat) (m : Msg) : (sys a1 a2 c).node (22, i) m = .fwd false (castTo .bang [(24, 0)] m ++ (castTo .bang [(9, 0)] m ++ ([]))) := by rw [sys_eq, seq_T (cs := [some .bang, some .bang]) (outs := [[(9, 0)], [(24, 0)]]) rfl]; rfl
theorem n23 (a1 : ℚ) (a2 : ℚ) (c : Ctx) (i : Nat) (m : Msg) : (sys a1 a2 c).node (23, i) m = .fwd true [((196, 1), m), ((796, 1), m), ((18, 1), m)] := by rw [sys_eq]; rfl
theorem n24 (a1 : ℚ) (a2 : ℚ) (c : Ctx) (i : Nat) (m : Msg) : (sys a1 a2 c).node (24, i) m = .obj (beh c (.msg [.lit (.float 65535)]) 24 i m) := by rw [sys_eq]; rfl
theorem o24_0 (a1 : ℚ) (a2 : ℚ) (c : Ctx) : (sys a1 a2 c).out 24 0 = [(23, 0)] := by rw [sys_eq]; rfl
theorem n26_0 (a1 : ℚ) (a2 : ℚ) (c : Ctx) (m : Msg) : (sys a1 a2 c).node (26, 0) m = .fwd false [((29, 0), m)] := by rw [sys_eq]; rfl
theorem n26_1 (a1 : ℚ) (a2 : ℚ) (c : Ctx) (m : Msg) : (sys a1 a2 c).node (26, 1) m = .fwd false [] := by rw [sys_eq]; rfl
theorem n29 (a1 : ℚ) (a2 : ℚ) (c : Ctx) (i : Nat) (m : Msg) : (sys a1 a2 c).node (29, i) m = .obj (beh c (.switch [(.sym "stop"), (.sym "clear")]) 29 i m) := by rw [sys_eq]; rfl
theorem o29_0 (a1 : ℚ) (a2 : ℚ) (c : Ctx) : (sys a1 a2 c).out 29 0 = [(31, 0)] := by rw [sys_eq]; rfl
theorem o29_1 (a1 : ℚ) (a2 : ℚ) (c : Ctx) : (sys a1 a2 c).out 29 1 = [(33, 0)] := by rw [sys_eq]; rfl
theorem o29_2 (a1 : ℚ) (a2 : ℚ) (c : Ctx) : (sys a1 a2 c).out 29 2 = [(30, 0)] := by rw [sys_eq]; rfl
theorem n30 (a1 : ℚ) (a2 : ℚ) (c : Ctx) (i : Nat) (m : Msg) : (sys a1 a2 c).node (30, i) m = .fwd false [((35, 0), m)] := by rw [sys_eq]; rfl
theorem n31 (a1 : ℚ) (a2 : ℚ) (c : Ctx) (i : Nat) (m : Msg) : (sys a1 a2 c).node (31, i) m = .obj (beh c (.slice 1 0) 31 i m) := by rw [sys_eq]; rfl
theorem o31_0 (a1 : ℚ) (a2 : ℚ) (c : Ctx) : (sys a1 a2 c).out 31 0 = [(32, 0)] := by rw [sys_eq]; rfl
theorem o31_1 (a1 : ℚ) (a2 : ℚ) (c : Ctx) : (sys a1 a2 c).out 31 1 = [(32, 0)] := by rw [sys_eq]; rfl
theorem n32 (a1 : ℚ) (a2 : ℚ) (c : Ctx) (i : Nat) (m : Msg) : (sys a1 a2 c).node (32, i) m = .fwd false [((272, 0), m)] := by rw [sys_eq]; rfl
theorem n33 (a1 : ℚ) (a2 : ℚ) (c : Ctx) (i : Nat) (m : Msg) : (sys a1 a2 c).node (33, i) m = .obj (beh c (.slice 1 0) 33 i m) := by rw [sys_eq]; rfl
theorem o33_0 (a1 : ℚ) (a2 : ℚ) (c : Ctx) : (sys a1 a2 c).out 33 0 = [(34, 0)] := by rw [sys_eq]; rfl
theorem o33_1 (a1 : ℚ) (a2 : ℚ) (c : Ctx) : (sys a1 a2 c).out 33 1 = [(34, 0)] := by rw [sys_eq]; rfl
theorem n34 (a1 : ℚ) (a2 : ℚ) (c : Ctx) (i : Nat) (m : Msg) : (sys a1 a2 c).node (34, i) m = .fwd false [((390, 0), m)] := by rw [sys_eq]; rfl
theorem n35_0 (a1 : ℚ) (a2 : ℚ) (c : Ctx) (m : Msg) : (sys a1 a2 c).node (35, 0) m = .fwd false [((37, 0), m), ((39, 0), m)] := by rw [sys_eq]; rfl
theorem n37 (a1 : ℚ) (a2 : ℚ) (c : Ctx) (i : Nat) (m : Msg) : (sys a1 a2 c).node (37, i) m = .obj (beh c (.slice 1 1) 37 i m) := by rw [sys_eq]; rfl
theorem o37_0 (a1 : ℚ) (a2 : ℚ) (c : Ctx) : (sys a1 a2 c).out 37 0 = [(38, 0)] := by rw [sys_eq]; rfl
theorem o37_1 (a1 : ℚ) (a2 : ℚ) (c : Ctx) : (sys a1 a2 c).out 37 1 = [] := by rw [sys_eq]; rfl
theorem n38 (a1 : ℚ) (a2 : ℚ) (c : Ctx) (i : Nat) (m : Msg) : (sys a1 a2 c).node (38, i) m = .fwd false [((41, 0), m)] := by rw [sys_eq]; rfl
theorem n39 (a1 : ℚ) (a2 : ℚ) (c : Ctx) (i : Nat) (m : Msg) : (sys a1 a2 c).node (39, i) m = .obj (beh c (.slice 0 1) 39 i m) := by rw [sys_eq]; rfl
theorem o39_0 (a1 : ℚ) (a2 : ℚ) (c : Ctx) : (sys a1 a2 c).out 39 0 = [(40, 0)] := by rw [sys_eq]; rfl
theorem o39_1 (a1 : ℚ) (a2 : ℚ) (c : Ctx) : (sys a1 a2 c).out 39 1 = [] := by rw [sys_eq]; rfl
theorem n40 (a1 : ℚ) (a2 : ℚ) (c : Ctx) (i : Nat) (m : Msg) : (sys a1 a2 c).node (40, i) m = .fwd false [((61, 0), m)] := by rw [sys_eq]; rfl
theorem n41_0 (a1 : ℚ) (a2 : ℚ) (c : Ctx) (m : Msg) : (sys a1 a2 c).node (41, 0) m = .fwd false [((42, 0), m)] := by rw [sys_eq]; rfl
theorem n41_1 (a1 : ℚ) (a2 : ℚ) (c : Ctx) (m : Msg) : (sys a1 a2 c).node (41, 1) m = .fwd false [((42, 1), m)] := by rw [sys_eq]; rfl
theorem n42 (a1 : ℚ) (a2 : ℚ) (c : Ctx) (i : Nat) (m : Msg) : (sys a1 a2 c).node (42, i) m = .obj (beh c (.var (.float 0)) 42 i m) := by rw [sys_eq]; rfl
theorem o42_0 (a1 : ℚ) (a2 : ℚ) (c : Ctx) : (sys a1 a2 c).out 42 0 = [(43, 0)] := by rw [sys_eq]; rfl
theorem n43 (a1 : ℚ) (a2 : ℚ) (c : Ctx) (i : Nat) (m : Msg) : (sys a1 a2 c).node (43, i) m = .fwd false [((54, 0), m)] := by rw [sys_eq]; rfl
theorem n47 (a1 : ℚ) (a2 : ℚ) (c : Ctx) (i : Nat) (m : Msg) : (sys a1 a2 c).node (47, i) m = .obj (beh c (.bink .gt 0) 47 i m) := by rw [sys_eq]; rfl
theorem o47_0 (a1 : ℚ) (a2 : ℚ) (c : Ctx) : (sys a1 a2 c).out 47 0 = [(48, 0)] := by rw [sys_eq]; rfl
theorem n48 (a1 : ℚ) (a2 : ℚ) (c : Ctx) (i : Nat) (m : Msg) : (sys a1 a2 c).node (48, i) m = .fwd false ([((49, 1), m)] ++ ([((60, 0), m)] ++ ([]))) := by rw [sys_eq, seq_T (cs := [none, none]) (outs := [[(60, 0)], [(49, 1)]]) rfl]; rfl
theorem n49_0 (a1 : ℚ) (a2 : ℚ) (c : Ctx) (m : Msg) : (sys a1 a2 c).node (49, 0) m = .fwd false [((53, 0), m)] := by rw [sys_eq]; rfl
theorem n49_1 (a1 : ℚ) (a2 : ℚ) (c : Ctx) (m : Msg) : (sys a1 a2 c).node (49, 1) m = .fwd false [((53, 1), m)] := by rw [sys_eq]; rfl
theorem n52 (a1 : ℚ) (a2 : ℚ) (c : Ctx) (i : Nat) (m : Msg) : (sys a1 a2 c).node (52, i) m = .fwd false [((476, 0), m)] := by rw [sys_eq]; rfl
theorem n53 (a1 : ℚ) (a2 : ℚ) (c : Ctx) (i : Nat) (m : Msg) : (sys a1 a2 c).node (53, i) m = .obj (beh c (.ite 0) 53 i m) := by rw [sys_eq]; rfl
theorem o53_0 (a1 : ℚ) (a2 : ℚ) (c : Ctx) : (sys a1 a2 c).out 53 0 = [] := by rw [sys_eq]; rfl
theorem o53_1 (a1 : ℚ) (a2 : ℚ) (c : Ctx) : (sys a1 a2 c).out 53 1 = [(52, 0)] := by rw [sys_eq]; rfl
theorem n54 (a1 : ℚ) (a2 : ℚ) (c : Ctx) (i : Nat) (m : Msg) : (sys a1 a2 c).node (54, i) m = .fwd false ([((476, 1), m)] ++ ([((64, 1), m)] ++ ([((47, 0), m)] ++ ([])))) := by rw [sys_eq, seq_T (cs := [none, none, none]) (outs := [[(47, 0)], [(64, 1)], [(476, 1)]]) rfl]; rfl
theorem n55_0 (a1 : ℚ) (a2 : ℚ) (c : Ctx) (m : Msg) : (sys a1 a2 c).node (55, 0) m = .fwd false [((59, 0), m)] := by rw [sys_eq]; rfl
theorem n55_1 (a1 : ℚ) (a2 : ℚ) (c : Ctx) (m : Msg) : (sys a1 a2 c).node (55, 1) m = .fwd false [((59, 1), m)] := by rw [sys_eq]; rfl
theorem n58 (a1 : ℚ) (a2 : ℚ) (c : Ctx) (i : Nat) (m : Msg) : (sys a1 a2 c).node (58, i) m = .fwd false [((64, 0), m)] := by rw [sys_eq]; rfl
theorem n59 (a1 : ℚ) (a2 : ℚ) (c : Ctx) (i : Nat) (m : Msg) : (sys a1 a2 c).node (59, i) m = .obj (beh c (.ite 0) 59 i m) := by rw [sys_eq]; rfl
theorem o59_0 (a1 : ℚ) (a2 : ℚ) (c : Ctx) : (sys a1 a2 c).out 59 0 = [] := by rw [sys_eq]; rfl
theorem o59_1 (a1 : ℚ) (a2 : ℚ) (c : Ctx) : (sys a1 a2 c).out 59 1 = [(58, 0)] := by rw [sys_eq]; rfl
theorem n60 (a1 : ℚ) (a2 : ℚ) (c : Ctx) (i : Nat) (m : Msg) : (sys a1 a2 c).node (60, i) m = .obj (beh c (.bink .eq 0) 60 i m) := by rw [sys_eq]; rfl
theorem o60_0 (a1 : ℚ) (a2 : ℚ) (c : Ctx) : (sys a1 a2 c).out 60 0 = [(55, 1)] := by rw [sys_eq]; rfl
theorem n61 (a1 : ℚ) (a2 : ℚ) (c : Ctx) (i : Nat) (m : Msg) : (sys a1 a2 c).node (61, i) m = .fwd false ([((49, 0), m)] ++ ([((55, 0), m)] ++ ([]))) := by rw [sys_eq, seq_T (cs := [none, none]) (outs := [[(55, 0)], [(49, 0)]]) rfl]; rfl
theorem n63 (a1 : ℚ) (a2 : ℚ) (c : Ctx) (i : Nat) (m : Msg) : (sys a1 a2 c).node (63, i) m = .obj (beh c (.bink .neq 0) 63 i m) := by rw [sys_eq]; rfl
theorem o63_0 (a1 : ℚ) (a2 : ℚ) (c : Ctx) : (sys a1 a2 c).out 63 0 = [(1, 0)] := by rw [sys_eq]; rfl
theorem n64_0 (a1 : ℚ) (a2 : ℚ) (c : Ctx) (m : Msg) : (sys a1 a2 c).node (64, 0) m = .fwd false [((270, 0), m)] := by rw [sys_eq]; rfl
theorem n64_1 (a1 : ℚ) (a2 : ℚ) (c : Ctx) (m : Msg) : (sys a1 a2 c).node (64, 1) m = .fwd false [((270, 1), m)] := by rw [sys_eq]; rfl
theorem n65 (a1 : ℚ) (a2 : ℚ) (c : Ctx) (i : Nat) (m : Msg) : (sys a1 a2 c).node (65, i) m = .fwd false [((4, 0), m)] := by rw [sys_eq]; rfl
theorem n66 (a1 : ℚ) (a2 : ℚ) (c : Ctx) (i : Nat) (m : Msg) : (sys a1 a2 c).node (66, i) m = .fwd false [((5, 0), m)] := by rw [sys_eq]; rfl
theorem n67 (a1 : ℚ) (a2 : ℚ) (c : Ctx) (i : Nat) (m : Msg) : (sys a1 a2 c).node (67, i) m = .fwd false [((11, 0), m)] := by rw [sys_eq]; rfl
theorem n68_0 (a1 : ℚ) (a2 : ℚ) (c : Ctx) (m : Msg) : (sys a1 a2 c).node (68, 0) m = .fwd false [((94, 0), m)] := by rw [sys_eq]; rfl
theorem n70 (a1 : ℚ) (a2 : ℚ) (c : Ctx) (i : Nat) (m : Msg) : (sys a1 a2 c).node (70, i) m = .fwd false (castTo .float [(76, 0)] m ++ (castTo .float [(71, 0)] m ++ ([]))) := by rw [sys_eq, seq_T (cs := [some .float, some .float]) (outs := [[(71, 0)], [(76, 0)]]) rfl]; rcases m with _ | ⟨_ | _ | _, _⟩ <;> rfl
theorem n71_0 (a1 : ℚ) (a2 : ℚ) (c : Ctx) (m : Msg) : (sys a1 a2 c).node (71, 0) m = .fwd false [((75, 0), m)] := by rw [sys_eq]; rfl
theorem n71_1 (a1 : ℚ) (a2 : ℚ) (c : Ctx) (m : Msg) : (sys a1 a2 c).node (71, 1) m = .fwd false [((75, 1), m)] := by rw [sys_eq]; rfl
theorem n74 (a1 : ℚ) (a2 : ℚ) (c : Ctx) (i : Nat) (m : Msg) : (sys a1 a2 c).node (74, i) m = .fwd false [((108, 0), m)] := by rw [sys_eq]; rfl
theorem n75 (a1 : ℚ) (a2 : ℚ) (c : Ctx) (i : Nat) (m : Msg) : (sys a1 a2 c).node (75, i) m = .obj (beh c (.ite 0) 75 i m) := by rw [sys_eq]; rfl
theorem o75_0 (a1 : ℚ) (a2 : ℚ) (c : Ctx) : (sys a1 a2 c).out 75 0 = [] := by rw [sys_eq]; rfl
theorem o75_1 (a1 : ℚ) (a2 : ℚ) (c : Ctx) : (sys a1 a2 c).out 75 1 = [(74, 0)] := by rw [sys_eq]; rfl
theorem n76 (a1 : ℚ) (a2 : ℚ) (c : Ctx) (i : Nat) (m : Msg) : (sys a1 a2 c).node (76, i) m = .obj (beh c (.bin .lt 0) 76 i m) := by rw [sys_eq]; rfl
theorem o76_0 (a1 : ℚ) (a2 : ℚ) (c : Ctx) : (sys a1 a2 c).out 76 0 = [(71, 1)] := by rw [sys_eq]; rfl
theorem n77 (a1 : ℚ) (a2 : ℚ) (c : Ctx) (i : Nat) (m : Msg) : (sys a1 a2 c).node (77, i) m = .fwd false (castTo .float [(76, 1)] m ++ (castTo .float [(84, 0)] m ++ ([]))) := by rw [sys_eq, seq_T (cs := [some .float, some .float]) (outs := [[(84, 0)], [(76, 1)]]) rfl]; rcases m with _ | ⟨_ | _ | _, _⟩ <;> rfl
theorem n78_0 (a1 : ℚ) (a2 : ℚ) (c : Ctx) (m : Msg) : (sys a1 a2 c).node (78, 0) m = .fwd false [((79, 0), m)] := by rw [sys_eq]; rfl
theorem n78_1 (a1 : ℚ) (a2 : ℚ) (c : Ctx) (m : Msg) : (sys a1 a2 c).node (78, 1) m = .fwd false [((79, 1), m)] := by rw [sys_eq]; rfl
theorem n79 (a1 : ℚ) (a2 : ℚ) (c : Ctx) (i : Nat) (m : Msg) : (sys a1 a2 c).node (79, i) m = .obj (beh c (.var (.float 0)) 79 i m) := by rw [sys_eq]; rfl
theorem o79_0 (a1 : ℚ) (a2 : ℚ) (c : Ctx) : (sys a1 a2 c).out 79 0 = [(80, 0)] := by rw [sys_eq]; rfl
theorem n80 (a1 : ℚ) (a2 : ℚ) (c : Ctx) (i : Nat) (m : Msg) : (sys a1 a2 c).node (80, i) m = .fwd false [((70, 0), m)] := by rw [sys_eq]; rfl
theorem n83 (a1 : ℚ) (a2 : ℚ) (c : Ctx) (i : Nat) (m : Msg) : (sys a1 a2 c).node (83, i) m = .obj (beh c (.bink .add 1) 83 i m) := by rw [sys_eq]; rfl
theorem o83_0 (a1 : ℚ) (a2 : ℚ) (c : Ctx) : (sys a1 a2 c).out 83 0 = [(78, 0)] := by rw [sys_eq]; rfl
theorem n84 (a1 : ℚ) (a2 : ℚ) (c : Ctx) (i : Nat) (m : Msg) : (sys a1 a2 c).node (84, i) m = .obj (beh c (.msg [.lit (.float 0)]) 84 i m) := by rw [sys_eq]; rfl
theorem o84_0 (a1 : ℚ) (a2 : ℚ) (c : Ctx) : (sys a1 a2 c).out 84 0 = [(78, 0)] := by rw [sys_eq]; rfl
theorem n85 (a1 : ℚ) (a2 : ℚ) (c : Ctx) (i : Nat) (m : Msg) : (sys a1 a2 c).node (85, i) m = .fwd false [((110, 0), m)] := by rw [sys_eq]; rfl
theorem n86_0 (a1 : ℚ) (a2 : ℚ) (c : Ctx) (m : Msg) : (sys a1 a2 c).node (86, 0) m = .fwd false [((92, 0), m)] := by rw [sys_eq]; rfl
theorem n86_1 (a1 : ℚ) (a2 : ℚ) (c : Ctx) (m : Msg) : (sys a1 a2 c).node (86, 1) m = .fwd false [((91, 1), m)] := by rw [sys_eq]; rfl
theorem n89 (a1 : ℚ) (a2 : ℚ) (c : Ctx) (i : Nat) (m : Msg) : (sys a1 a2 c).node (89, i) m = .fwd false [] := by rw [sys_eq]; rfl
theorem n90 (a1 : ℚ) (a2 : ℚ) (c : Ctx) (i : Nat) (m : Msg) : (sys a1 a2 c).node (90, i) m = .fwd false [((77, 0), m)] := by rw [sys_eq]; rfl
theorem n91 (a1 : ℚ) (a2 : ℚ) (c : Ctx) (i : Nat) (m : Msg) : (sys a1 a2 c).node (91, i) m = .obj (beh c (.bin .ge 1) 91 i m) := by rw [sys_eq]; rfl
theorem o91_0 (a1 : ℚ) (a2 : ℚ) (c : Ctx) : (sys a1 a2 c).out 91 0 = [(93, 1)] := by rw [sys_eq]; rfl
theorem n92 (a1 : ℚ) (a2 : ℚ) (c : Ctx) (i : Nat) (m : Msg) : (sys a1 a2 c).node (92, i) m = .fwd false ([((91, 0), m)] ++ ([((93, 0), m)] ++ ([]))) := by rw [sys_eq, seq_T (cs := [none, none]) (outs := [[(93, 0)], [(91, 0)]]) rfl]; rfl
theorem n93 (a1 : ℚ) (a2 : ℚ) (c : Ctx) (i : Nat) (m : Msg) : (sys a1 a2 c).node (93, i) m = .obj (beh c (.ite 0) 93 i m) := by rw [sys_eq]; rfl
theorem o93_0 (a1 : ℚ) (a2 : ℚ) (c : Ctx) : (sys a1 a2 c).out 93 0 = [(89, 0)] := by rw [sys_eq]; rfl
theorem o93_1 (a1 : ℚ) (a2 : ℚ) (c : Ctx) : (sys a1 a2 c).out 93 1 = [(90, 0)] := by rw [sys_eq]; rfl
theorem n94_0 (a1 : ℚ) (a2 : ℚ) (c : Ctx) (m : Msg) : (sys a1 a2 c).node (94, 0) m = .fwd false [((96, 0), m)] := by rw [sys_eq]; rfl
theorem n94_1 (a1 : ℚ) (a2 : ℚ) (c : Ctx) (m : Msg) : (sys a1 a2 c).node (94, 1) m = .fwd false [((96, 1), m)] := by rw [sys_eq]; rfl
theorem n96_0 (a1 : ℚ) (a2 : ℚ) (c : Ctx) (m : Msg) : (sys a1 a2 c).node (96, 0) m = .fwd false [((97, 0), m)] := by rw [sys_eq]; rfl
theorem n96_1 (a1 : ℚ) (a2 : ℚ) (c : Ctx) (m : Msg) : (sys a1 a2 c).node (96, 1) m = .fwd false [((97, 1), m)] := by rw [sys_eq]; rfl
theorem n97 (a1 : ℚ) (a2 : ℚ) (c : Ctx) (i : Nat) (m : Msg) : (sys a1 a2 c).node (97, i) m = .obj (beh c (.var (.float 0)) 97 i m) := by rw [sys_eq]; rfl
theorem o97_0 (a1 : ℚ) (a2 : ℚ) (c : Ctx) : (sys a1 a2 c).out 97 0 = [(98, 0)] := by rw [sys_eq]; rfl
theorem n98 (a1 : ℚ) (a2 : ℚ) (c : Ctx) (i : Nat) (m : Msg) : (sys a1 a2 c).node (98, i) m = .fwd false [((107, 0), m)] := by rw [sys_eq]; rfl
theorem n102 (a1 : ℚ) (a2 : ℚ) (c : Ctx) (i : Nat) (m : Msg) : (sys a1 a2 c).node (102, i) m = .fwd false [((86, 0), m)] := by rw [sys_eq]; rfl
theorem n103 (a1 : ℚ) (a2 : ℚ) (c : Ctx) (i : Nat) (m : Msg) : (sys a1 a2 c).node (103, i) m = .obj (beh c (.ite 0) 103 i m) := by rw [sys_eq]; rfl
theorem o103_0 (a1 : ℚ) (a2 : ℚ) (c : Ctx) : (sys a1 a2 c).out 103 0 = [(106, 0)] := by rw [sys_eq]; rfl
theorem o103_1 (a1 : ℚ) (a2 : ℚ) (c : Ctx) : (sys a1 a2 c).out 103 1 = [(105, 0)] := by rw [sys_eq]; rfl
theorem n104 (a1 : ℚ) (a2 : ℚ) (c : Ctx) (i : Nat) (m : Msg) : (sys a1 a2 c).node (104, i) m = .obj (beh c (.bink .gt 0) 104 i m) := by rw [sys_eq]; rfl
theorem o104_0 (a1 : ℚ) (a2 : ℚ) (c : Ctx) : (sys a1 a2 c).out 104 0 = [(103, 1)] := by rw [sys_eq]; rfl
theorem n105 (a1 : ℚ) (a2 : ℚ) (c : Ctx) (i : Nat) (m : Msg) : (sys a1 a2 c).node (105, i) m = .obj (beh c (.un .floor) 105 i m) := by rw [sys_eq]; rfl
theorem o105_0 (a1 : ℚ) (a2 : ℚ) (c : Ctx) : (sys a1 a2 c).out 105 0 = [(102, 0)] := by rw [sys_eq]; rfl
theorem n106 (a1 : ℚ) (a2 : ℚ) (c : Ctx) (i : Nat) (m : Msg) : (sys a1 a2 c).node (106, i) m = .obj (beh c (.un .ceil) 106 i m) := by rw [sys_eq]; rfl
theorem o106_0 (a1 : ℚ) (a2 : ℚ) (c : Ctx) : (sys a1 a2 c).out 106 0 = [(102, 0)] := by rw [sys_eq]; rfl
theorem n107 (a1 : ℚ) (a2 : ℚ) (c : Ctx) (i : Nat) (m : Msg) : (sys a1 a2 c).node (107, i) m = .fwd false ([((104, 0), m)] ++ ([((103, 0), m)] ++ ([]))) := by rw [sys_eq, seq_T (cs := [none, none]) (outs := [[(103, 0)], [(104, 0)]]) rfl]; rfl
theorem n108 (a1 : ℚ) (a2 : ℚ) (c : Ctx) (i : Nat) (m : Msg) : (sys a1 a2 c).node (108, i) m = .fwd false (castTo .float [(85, 0)] m ++ (castTo .float [(83, 0)] m ++ ([]))) := by rw [sys_eq, seq_T (cs := [some .float, some .float]) (outs := [[(83, 0)], [(85, 0)]]) rfl]; rcases m with _ | ⟨_ | _ | _, _⟩ <;> rfl
theorem n109 (a1 : ℚ) (a2 : ℚ) (c : Ctx) (i : Nat) (m : Msg) : (sys a1 a2 c).node (109, i) m = .obj (beh c (.var (.float a1)) 109 i m) := by rw [sys_eq]; rfl
theorem o109_0 (a1 : ℚ) (a2 : ℚ) (c : Ctx) : (sys a1 a2 c).out 109 0 = [(68, 0)] := by rw [sys_eq]; rfl
theorem n110 (a1 : ℚ) (a2 : ℚ) (c : Ctx) (i : Nat) (m : Msg) : (sys a1 a2 c).node (110, i) m = .fwd false (castTo .float [(156, 1)] m ++ (castTo .float [(134, 0)] m ++ (castTo .float [(112, 0)] m ++ (castTo .float [(170, 0)] m ++ ([]))))) := by rw [sys_eq, seq_T (cs := [some .float, some .float, some .float, some .float]) (outs := [[(170, 0)], [(112, 0)], [(134, 0)], [(156, 1)]]) rfl]; rcases m with _ | ⟨_ | _ | _, _⟩ <;> rfl
theorem n111 (a1 : ℚ) (a2 : ℚ) (c : Ctx) (i : Nat) (m : Msg) : (sys a1 a2 c).node (111, i) m = .obj (beh c (.msg [.lit (.float 0)]) 111 i m) := by rw [sys_eq]; rfl
theorem o111_0 (a1 : ℚ) (a2 : ℚ) (c : Ctx) : (sys a1 a2 c).out 111 0 = [(271, 0), (156, 0)] := by rw [sys_eq]; rfl
theorem n112_0 (a1 : ℚ) (a2 : ℚ) (c : Ctx) (m : Msg) : (sys a1 a2 c).node (112, 0) m = .fwd false [((116, 0), m)] := by rw [sys_eq]; rfl
theorem n114 (a1 : ℚ) (a2 : ℚ) (c : Ctx) (i : Nat) (m : Msg) : (sys a1 a2 c).node (114, i) m = .fwd false [((194, 0), m)] := by rw [sys_eq]; rfl
theorem n115 (a1 : ℚ) (a2 : ℚ) (c : Ctx) (i : Nat) (m : Msg) : (sys a1 a2 c).node (115, i) m = .obj (beh c (.tabread 1) 115 i m) := by rw [sys_eq]; rfl
theorem o115_0 (a1 : ℚ) (a2 : ℚ) (c : Ctx) : (sys a1 a2 c).out 115 0 = [(114, 0)] := by rw [sys_eq]; rfl
theorem n116_0 (a1 : ℚ) (a2 : ℚ) (c : Ctx) (m : Msg) : (sys a1 a2 c).node (116, 0) m = .fwd false [((119, 0), m)] := by rw [sys_eq]; rfl
theorem n116_1 (a1 : ℚ) (a2 : ℚ) (c : Ctx) (m : Msg) : (sys a1 a2 c).node (116, 1) m = .fwd false [] := by rw [sys_eq]; rfl
theorem n119 (a1 : ℚ) (a2 : ℚ) (c : Ctx) (i : Nat) (m : Msg) : (sys a1 a2 c).node (119, i) m = .obj (beh c (.switch [(.sym "set")]) 119 i m) := by rw [sys_eq]; rfl
theorem o119_0 (a1 : ℚ) (a2 : ℚ) (c : Ctx) : (sys a1 a2 c).out 119 0 = [(121, 0)] := by rw [sys_eq]; rfl
theorem o119_1 (a1 : ℚ) (a2 : ℚ) (c : Ctx) : (sys a1 a2 c).out 119 1 = [(120, 0)] := by rw [sys_eq]; rfl
theorem n120 (a1 : ℚ) (a2 : ℚ) (c : Ctx) (i : Nat) (m : Msg) : (sys a1 a2 c).node (120, i) m = .fwd false [((125, 0), m)] := by rw [sys_eq]; rfl
theorem n121 (a1 : ℚ) (a2 : ℚ) (c : Ctx) (i : Nat) (m : Msg) : (sys a1 a2 c).node (121, i) m = .obj (beh c (.slice 1 0) 121 i m) := by rw [sys_eq]; rfl
theorem o121_0 (a1 : ℚ) (a2 : ℚ) (c : Ctx) : (sys a1 a2 c).out 121 0 = [(122, 0)] := by rw [sys_eq]; rfl
theorem o121_1 (a1 : ℚ) (a2 : ℚ) (c : Ctx) : (sys a1 a2 c).out 121 1 = [(122, 0)] := by rw [sys_eq]; rfl
theorem n122 (a1 : ℚ) (a2 : ℚ) (c : Ctx) (i : Nat) (m : Msg) : (sys a1 a2 c).node (122, i) m = .fwd false [((115, 1), m)] := by rw [sys_eq]; rfl
theorem n123 (a1 : ℚ) (a2 : ℚ) (c : Ctx) (i : Nat) (m : Msg) : (sys a1 a2 c).node (123, i) m = .obj (beh c (.system) 123 i m) := by rw [sys_eq]; rfl
theorem o123_0 (a1 : ℚ) (a2 : ℚ) (c : Ctx) : (sys a1 a2 c).out 123 0 = [(133, 0)] := by rw [sys_eq]; rfl
theorem n124 (a1 : ℚ) (a2 : ℚ) (c : Ctx) (i : Nat) (m : Msg) : (sys a1 a2 c).node (124, i) m = .obj (beh c (.bink .max 0) 124 i m) := by rw [sys_eq]; rfl
theorem o124_0 (a1 : ℚ) (a2 : ℚ) (c : Ctx) : (sys a1 a2 c).out 124 0 = [(131, 0)] := by rw [sys_eq]; rfl
theorem n125 (a1 : ℚ) (a2 : ℚ) (c : Ctx) (i : Nat) (m : Msg) : (sys a1 a2 c).node (125, i) m = .fwd false (castTo .bang [(126, 0)] m ++ (castTo .float [(124, 0)] m ++ ([]))) := by rw [sys_eq, seq_T (cs := [some .float, some .bang]) (outs := [[(124, 0)], [(126, 0)]]) rfl]; rcases m with _ | ⟨_ | _ | _, _⟩ <;> rfl
theorem n126_0 (a1 : ℚ) (a2 : ℚ) (c : Ctx) (m : Msg) : (sys a1 a2 c).node (126, 0) m = .fwd false [((129, 0), m)] := by rw [sys_eq]; rfl
theorem n126_1 (a1 : ℚ) (a2 : ℚ) (c : Ctx) (m : Msg) : (sys a1 a2 c).node (126, 1) m = .fwd false [((129, 1), m)] := by rw [sys_eq]; rfl
theorem n128 (a1 : ℚ) (a2 : ℚ) (c : Ctx) (i : Nat) (m : Msg) : (sys a1 a2 c).node (128, i) m = .fwd false [((132, 0), m)] := by rw [sys_eq]; rfl
theorem n129 (a1 : ℚ) (a2 : ℚ) (c : Ctx) (i : Nat) (m : Msg) : (sys a1 a2 c).node (129, i) m = .obj (beh c (.var (.sym "1-used")) 129 i m) := by rw [sys_eq]; rfl
theorem o129_0 (a1 : ℚ) (a2 : ℚ) (c : Ctx) : (sys a1 a2 c).out 129 0 = [(128, 0)] := by rw [sys_eq]; rfl
theorem n131 (a1 : ℚ) (a2 : ℚ) (c : Ctx) (i : Nat) (m : Msg) : (sys a1 a2 c).node (131, i) m = .obj (beh c (.bin .min 0) 131 i m) := by rw [sys_eq]; rfl
theorem o131_0 (a1 : ℚ) (a2 : ℚ) (c : Ctx) : (sys a1 a2 c).out 131 0 = [(115, 0)] := by rw [sys_eq]; rfl
theorem n132 (a1 : ℚ) (a2 : ℚ) (c : Ctx) (i : Nat) (m : Msg) : (sys a1 a2 c).node (132, i) m = .obj (beh c (.msg [.lit (.sym "table"), .arg 0, .lit (.sym "length")]) 132 i m) := by rw [sys_eq]; rfl
theorem o132_0 (a1 : ℚ) (a2 : ℚ) (c : Ctx) : (sys a1 a2 c).out 132 0 = [(123, 0)] := by rw [sys_eq]; rfl
theorem n133 (a1 : ℚ) (a2 : ℚ) (c : Ctx) (i : Nat) (m : Msg) : (sys a1 a2 c).node (133, i) m = .obj (beh c (.bink .sub 1) 133 i m) := by rw [sys_eq]; rfl
theorem o133_0 (a1 : ℚ) (a2 : ℚ) (c : Ctx) : (sys a1 a2 c).out 133 0 = [(131, 1)] := by rw [sys_eq]; rfl
theorem n134_0 (a1 : ℚ) (a2 : ℚ) (c : Ctx) (m : Msg) : (sys a1 a2 c).node (134, 0) m = .fwd false [((138, 0), m)] := by rw [sys_eq]; rfl
theorem n136 (a1 : ℚ) (a2 : ℚ) (c : Ctx) (i : Nat) (m : Msg) : (sys a1 a2 c).node (136, i) m = .fwd false [((215, 0), m)] := by rw [sys_eq]; rfl
theorem n137 (a1 : ℚ) (a2 : ℚ) (c : Ctx) (i : Nat) (m : Msg) : (sys a1 a2 c).node (137, i) m = .obj (beh c (.tabread 2) 137 i m) := by rw [sys_eq]; rfl
theorem o137_0 (a1 : ℚ) (a2 : ℚ) (c : Ctx) : (sys a1 a2 c).out 137 0 = [(136, 0)] := by rw [sys_eq]; rfl
theorem n138_0 (a1 : ℚ) (a2 : ℚ) (c : Ctx) (m : Msg) : (sys a1 a2 c).node (138, 0) m = .fwd false [((141, 0), m)] := by rw [sys_eq]; rfl
theorem n138_1 (a1 : ℚ) (a2 : ℚ) (c : Ctx) (m : Msg) : (sys a1 a2 c).node (138, 1) m = .fwd false [] := by rw [sys_eq]; rfl
theorem n141 (a1 : ℚ) (a2 : ℚ) (c : Ctx) (i : Nat) (m : Msg) : (sys a1 a2 c).node (141, i) m = .obj (beh c (.switch [(.sym "set")]) 141 i m) := by rw [sys_eq]; rfl
theorem o141_0 (a1 : ℚ) (a2 : ℚ) (c : Ctx) : (sys a1 a2 c).out 141 0 = [(143, 0)] := by rw [sys_eq]; rfl
theorem o141_1 (a1 : ℚ) (a2 : ℚ) (c : Ctx) : (sys a1 a2 c).out 141 1 = [(142, 0)] := by rw [sys_eq]; rfl
theorem n142 (a1 : ℚ) (a2 : ℚ) (c : Ctx) (i : Nat) (m : Msg) : (sys a1 a2 c).node (142, i) m = .fwd false [((147, 0), m)] := by rw [sys_eq]; rfl
theorem n143 (a1 : ℚ) (a2 : ℚ) (c : Ctx) (i : Nat) (m : Msg) : (sys a1 a2 c).node (143, i) m = .obj (beh c (.slice 1 0) 143 i m) := by rw [sys_eq]; rfl
theorem o143_0 (a1 : ℚ) (a2 : ℚ) (c : Ctx) : (sys a1 a2 c).out 143 0 = [(144, 0)] := by rw [sys_eq]; rfl
theorem o143_1 (a1 : ℚ) (a2 : ℚ) (c : Ctx) : (sys a1 a2 c).out 143 1 = [(144, 0)] := by rw [sys_eq]; rfl
theorem n144 (a1 : ℚ) (a2 : ℚ) (c : Ctx) (i : Nat) (m : Msg) : (sys a1 a2 c).node (144, i) m = .fwd false [((137, 1), m)] := by rw [sys_eq]; rfl
theorem n145 (a1 : ℚ) (a2 : ℚ) (c : Ctx) (i : Nat) (m : Msg) : (sys a1 a2 c).node (145, i) m = .obj (beh c (.system) 145 i m) := by rw [sys_eq]; rfl
theorem o145_0 (a1 : ℚ) (a2 : ℚ) (c : Ctx) : (sys a1 a2 c).out 145 0 = [(155, 0)] := by rw [sys_eq]; rfl
theorem n146 (a1 : ℚ) (a2 : ℚ) (c : Ctx) (i : Nat) (m : Msg) : (sys a1 a2 c).node (146, i) m = .obj (beh c (.bink .max 0) 146 i m) := by rw [sys_eq]; rfl
theorem o146_0 (a1 : ℚ) (a2 : ℚ) (c : Ctx) : (sys a1 a2 c).out 146 0 = [(153, 0)] := by rw [sys_eq]; rfl
theorem n147 (a1 : ℚ) (a2 : ℚ) (c : Ctx) (i : Nat) (m : Msg) : (sys a1 a2 c).node (147, i) m = .fwd false (castTo .bang [(148, 0)] m ++ (castTo .float [(146, 0)] m ++ ([]))) := by rw [sys_eq, seq_T (cs := [some .float, some .bang]) (outs := [[(146, 0)], [(148, 0)]]) rfl]; rcases m with _ | ⟨_ | _ | _, _⟩ <;> rfl
theorem n148_0 (a1 : ℚ) (a2 : ℚ) (c : Ctx) (m : Msg) : (sys a1 a2 c).node (148, 0) m = .fwd false [((151, 0), m)] := by rw [sys_eq]; rfl
theorem n148_1 (a1 : ℚ) (a2 : ℚ) (c : Ctx) (m : Msg) : (sys a1 a2 c).node (148, 1) m = .fwd false [((151, 1), m)] := by rw [sys_eq]; rfl
theorem n150 (a1 : ℚ) (a2 : ℚ) (c : Ctx) (i : Nat) (m : Msg) : (sys a1 a2 c).node (150, i) m = .fwd false [((154, 0), m)] := by rw [sys_eq]; rfl
theorem n151 (a1 : ℚ) (a2 : ℚ) (c : Ctx) (i : Nat) (m : Msg) : (sys a1 a2 c).node (151, i) m = .obj (beh c (.var (.sym "1-ids")) 151 i m) := by rw [sys_eq]; rfl
theorem o151_0 (a1 : ℚ) (a2 : ℚ) (c : Ctx) : (sys a1 a2 c).out 151 0 = [(150, 0)] := by rw [sys_eq]; rfl
theorem n153 (a1 : ℚ) (a2 : ℚ) (c : Ctx) (i : Nat) (m : Msg) : (sys a1 a2 c).node (153, i) m = .obj (beh c (.bin .min 0) 153 i m) := by rw [sys_eq]; rfl
theorem o153_0 (a1 : ℚ) (a2 : ℚ) (c : Ctx) : (sys a1 a2 c).out 153 0 = [(137, 0)] := by rw [sys_eq]; rfl
theorem n154 (a1 : ℚ) (a2 : ℚ) (c : Ctx) (i : Nat) (m : Msg) : (sys a1 a2 c).node (154, i) m = .obj (beh c (.msg [.lit (.sym "table"), .arg 0, .lit (.sym "length")]) 154 i m) := by rw [sys_eq]; rfl
theorem o154_0 (a1 : ℚ) (a2 : ℚ) (c : Ctx) : (sys a1 a2 c).out 154 0 = [(145, 0)] := by rw [sys_eq]; rfl
theorem n155 (a1 : ℚ) (a2 : ℚ) (c : Ctx) (i : Nat) (m : Msg) : (sys a1 a2 c).node (155, i) m = .obj (beh c (.bink .sub 1) 155 i m) := by rw [sys_eq]; rfl
theorem o155_0 (a1 : ℚ) (a2 : ℚ) (c : Ctx) : (sys a1 a2 c).out 155 0 = [(153, 1)] := by rw [sys_eq]; rfl
theorem n156_0 (a1 : ℚ) (a2 : ℚ) (c : Ctx) (m : Msg) : (sys a1 a2 c).node (156, 0) m = .fwd false [((157, 0), m)] := by rw [sys_eq]; rfl
theorem n156_1 (a1 : ℚ) (a2 : ℚ) (c : Ctx) (m : Msg) : (sys a1 a2 c).node (156, 1) m = .fwd false [((157, 1), m)] := by rw [sys_eq]; rfl
theorem n157 (a1 : ℚ) (a2 : ℚ) (c : Ctx) (i : Nat) (m : Msg) : (sys a1 a2 c).node (157, i) m = .obj (beh c (.var (.float 0)) 157 i m) := by rw [sys_eq]; rfl
theorem o157_0 (a1 : ℚ) (a2 : ℚ) (c : Ctx) : (sys a1 a2 c).out 157 0 = [(158, 0)] := by rw [sys_eq]; rfl
theorem n158 (a1 : ℚ) (a2 : ℚ) (c : Ctx) (i : Nat) (m : Msg) : (sys a1 a2 c).node (158, i) m = .fwd false [((221, 1), m), ((233, 1), m), ((255, 1), m)] := by rw [sys_eq]; rfl
theorem n161 (a1 : ℚ) (a2 : ℚ) (c : Ctx) (i : Nat) (m : Msg) : (sys a1 a2 c).node (161, i) m = .obj (beh c (.msg [.lit (.float 1)]) 161 i m) := by rw [sys_eq]; rfl
theorem o161_0 (a1 : ℚ) (a2 : ℚ) (c : Ctx) : (sys a1 a2 c).out 161 0 = [(271, 0)] := by rw [sys_eq]; rfl
theorem n162 (a1 : ℚ) (a2 : ℚ) (c : Ctx) (i : Nat) (m : Msg) : (sys a1 a2 c).node (162, i) m = .fwd false (castTo .bang [(196, 0)] m ++ (castTo .bang [(111, 0)] m ++ ([((163, 0), m)] ++ ([((216, 0), m)] ++ ([]))))) := by rw [sys_eq, seq_T (cs := [none, none, some .bang, some .bang]) (outs := [[(216, 0)], [(163, 0)], [(111, 0)], [(196, 0)]]) rfl]; rfl
theorem n163_0 (a1 : ℚ) (a2 : ℚ) (c : Ctx) (m : Msg) : (sys a1 a2 c).node (163, 0) m = .fwd false [((165, 0), m), ((167, 0), m)] := by rw [sys_eq]; rfl
theorem n165 (a1 : ℚ) (a2 : ℚ) (c : Ctx) (i : Nat) (m : Msg) : (sys a1 a2 c).node (165, i) m = .obj (beh c (.slice 1 1) 165 i m) := by rw [sys_eq]; rfl
theorem o165_0 (a1 : ℚ) (a2 : ℚ) (c : Ctx) : (sys a1 a2 c).out 165 0 = [(166, 0)] := by rw [sys_eq]; rfl
theorem o165_1 (a1 : ℚ) (a2 : ℚ) (c : Ctx) : (sys a1 a2 c).out 165 1 = [] := by rw [sys_eq]; rfl
theorem n166 (a1 : ℚ) (a2 : ℚ) (c : Ctx) (i : Nat) (m : Msg) : (sys a1 a2 c).node (166, i) m = .fwd false [] := by rw [sys_eq]; rfl
theorem n167 (a1 : ℚ) (a2 : ℚ) (c : Ctx) (i : Nat) (m : Msg) : (sys a1 a2 c).node (167, i) m = .obj (beh c (.slice 0 1) 167 i m) := by rw [sys_eq]; rfl
theorem o167_0 (a1 : ℚ) (a2 : ℚ) (c : Ctx) : (sys a1 a2 c).out 167 0 = [(168, 0)] := by rw [sys_eq]; rfl
theorem o167_1 (a1 : ℚ) (a2 : ℚ) (c : Ctx) : (sys a1 a2 c).out 167 1 = [] := by rw [sys_eq]; rfl
theorem n168 (a1 : ℚ) (a2 : ℚ) (c : Ctx) (i : Nat) (m : Msg) : (sys a1 a2 c).node (168, i) m = .fwd false [((169, 0), m)] := by rw [sys_eq]; rfl
theorem n169 (a1 : ℚ) (a2 : ℚ) (c : Ctx) (i : Nat) (m : Msg) : (sys a1 a2 c).node (169, i) m = .fwd false (castTo .float [(192, 1)] m ++ (castTo .bang [(109, 0)] m ++ ([]))) := by rw [sys_eq, seq_T (cs := [some .bang, some .float]) (outs := [[(109, 0)], [(192, 1)]]) rfl]; rcases m with _ | ⟨_ | _ | _, _⟩ <;> rfl
theorem n170_0 (a1 : ℚ) (a2 : ℚ) (c : Ctx) (m : Msg) : (sys a1 a2 c).node (170, 0) m = .fwd false [((174, 0), m)] := by rw [sys_eq]; rfl
theorem n172 (a1 : ℚ) (a2 : ℚ) (c : Ctx) (i : Nat) (m : Msg) : (sys a1 a2 c).node (172, i) m = .fwd false [((192, 0), m)] := by rw [sys_eq]; rfl
theorem n173 (a1 : ℚ) (a2 : ℚ) (c : Ctx) (i : Nat) (m : Msg) : (sys a1 a2 c).node (173, i) m = .obj (beh c (.tabread 0) 173 i m) := by rw [sys_eq]; rfl
theorem o173_0 (a1 : ℚ) (a2 : ℚ) (c : Ctx) : (sys a1 a2 c).out 173 0 = [(172, 0)] := by rw [sys_eq]; rfl
theorem n174_0 (a1 : ℚ) (a2 : ℚ) (c : Ctx) (m : Msg) : (sys a1 a2 c).node (174, 0) m = .fwd false [((177, 0), m)] := by rw [sys_eq]; rfl
theorem n174_1 (a1 : ℚ) (a2 : ℚ) (c : Ctx) (m : Msg) : (sys a1 a2 c).node (174, 1) m = .fwd false [] := by rw [sys_eq]; rfl
theorem n177 (a1 : ℚ) (a2 : ℚ) (c : Ctx) (i : Nat) (m : Msg) : (sys a1 a2 c).node (177, i) m = .obj (beh c (.switch [(.sym "set")]) 177 i m) := by rw [sys_eq]; rfl
theorem o177_0 (a1 : ℚ) (a2 : ℚ) (c : Ctx) : (sys a1 a2 c).out 177 0 = [(179, 0)] := by rw [sys_eq]; rfl
theorem o177_1 (a1 : ℚ) (a2 : ℚ) (c : Ctx) : (sys a1 a2 c).out 177 1 = [(178, 0)] := by rw [sys_eq]; rfl
theorem n178 (a1 : ℚ) (a2 : ℚ) (c : Ctx) (i : Nat) (m : Msg) : (sys a1 a2 c).node (178, i) m = .fwd false [((183, 0), m)] := by rw [sys_eq]; rfl
theorem n179 (a1 : ℚ) (a2 : ℚ) (c : Ctx) (i : Nat) (m : Msg) : (sys a1 a2 c).node (179, i) m = .obj (beh c (.slice 1 0) 179 i m) := by rw [sys_eq]; rfl
theorem o179_0 (a1 : ℚ) (a2 : ℚ) (c : Ctx) : (sys a1 a2 c).out 179 0 = [(180, 0)] := by rw [sys_eq]; rfl
theorem o179_1 (a1 : ℚ) (a2 : ℚ) (c : Ctx) : (sys a1 a2 c).out 179 1 = [(180, 0)] := by rw [sys_eq]; rfl
theorem n180 (a1 : ℚ) (a2 : ℚ) (c : Ctx) (i : Nat) (m : Msg) : (sys a1 a2 c).node (180, i) m = .fwd false [((173, 1), m)] := by rw [sys_eq]; rfl
theorem n181 (a1 : ℚ) (a2 : ℚ) (c : Ctx) (i : Nat) (m : Msg) : (sys a1 a2 c).node (181, i) m = .obj (beh c (.system) 181 i m) := by rw [sys_eq]; rfl
theorem o181_0 (a1 : ℚ) (a2 : ℚ) (c : Ctx) : (sys a1 a2 c).out 181 0 = [(191, 0)] := by rw [sys_eq]; rfl
theorem n182 (a1 : ℚ) (a2 : ℚ) (c : Ctx) (i : Nat) (m : Msg) : (sys a1 a2 c).node (182, i) m = .obj (beh c (.bink .max 0) 182 i m) := by rw [sys_eq]; rfl
theorem o182_0 (a1 : ℚ) (a2 : ℚ) (c : Ctx) : (sys a1 a2 c).out 182 0 = [(189, 0)] := by rw [sys_eq]; rfl
theorem n183 (a1 : ℚ) (a2 : ℚ) (c : Ctx) (i : Nat) (m : Msg) : (sys a1 a2 c).node (183, i) m = .fwd false (castTo .bang [(184, 0)] m ++ (castTo .float [(182, 0)] m ++ ([]))) := by rw [sys_eq, seq_T (cs := [some .float, some .bang]) (outs := [[(182, 0)], [(184, 0)]]) rfl]; rcases m with _ | ⟨_ | _ | _, _⟩ <;> rfl
theorem n184_0 (a1 : ℚ) (a2 : ℚ) (c : Ctx) (m : Msg) : (sys a1 a2 c).node (184, 0) m = .fwd false [((187, 0), m)] := by rw [sys_eq]; rfl
theorem n184_1 (a1 : ℚ) (a2 : ℚ) (c : Ctx) (m : Msg) : (sys a1 a2 c).node (184, 1) m = .fwd false [((187, 1), m)] := by rw [sys_eq]; rfl
theorem n186 (a1 : ℚ) (a2 : ℚ) (c : Ctx) (i : Nat) (m : Msg) : (sys a1 a2 c).node (186, i) m = .fwd false [((190, 0), m)] := by rw [sys_eq]; rfl
theorem n187 (a1 : ℚ) (a2 : ℚ) (c : Ctx) (i : Nat) (m : Msg) : (sys a1 a2 c).node (187, i) m = .obj (beh c (.var (.sym "1-pitches")) 187 i m) := by rw [sys_eq]; rfl
theorem o187_0 (a1 : ℚ) (a2 : ℚ) (c : Ctx) : (sys a1 a2 c).out 187 0 = [(186, 0)] := by rw [sys_eq]; rfl
theorem n189 (a1 : ℚ) (a2 : ℚ) (c : Ctx) (i : Nat) (m : Msg) : (sys a1 a2 c).node (189, i) m = .obj (beh c (.bin .min 0) 189 i m) := by rw [sys_eq]; rfl
theorem o189_0 (a1 : ℚ) (a2 : ℚ) (c : Ctx) : (sys a1 a2 c).out 189 0 = [(173, 0)] := by rw [sys_eq]; rfl
theorem n190 (a1 : ℚ) (a2 : ℚ) (c : Ctx) (i : Nat) (m : Msg) : (sys a1 a2 c).node (190, i) m = .obj (beh c (.msg [.lit (.sym "table"), .arg 0, .lit (.sym "length")]) 190 i m) := by rw [sys_eq]; rfl
theorem o190_0 (a1 : ℚ) (a2 : ℚ) (c : Ctx) : (sys a1 a2 c).out 190 0 = [(181, 0)] := by rw [sys_eq]; rfl
theorem n191 (a1 : ℚ) (a2 : ℚ) (c : Ctx) (i : Nat) (m : Msg) : (sys a1 a2 c).node (191, i) m = .obj (beh c (.bink .sub 1) 191 i m) := by rw [sys_eq]; rfl
theorem o191_0 (a1 : ℚ) (a2 : ℚ) (c : Ctx) : (sys a1 a2 c).out 191 0 = [(189, 1)] := by rw [sys_eq]; rfl
theorem n192 (a1 : ℚ) (a2 : ℚ) (c : Ctx) (i : Nat) (m : Msg) : (sys a1 a2 c).node (192, i) m = .obj (beh c (.bin .eq 0) 192 i m) := by rw [sys_eq]; rfl
theorem o192_0 (a1 : ℚ) (a2 : ℚ) (c : Ctx) : (sys a1 a2 c).out 192 0 = [(193, 0)] := by rw [sys_eq]; rfl
theorem n193 (a1 : ℚ) (a2 : ℚ) (c : Ctx) (i : Nat) (m : Msg) : (sys a1 a2 c).node (193, i) m = .obj (beh c (.bin .and 0) 193 i m) := by rw [sys_eq]; rfl
theorem o193_0 (a1 : ℚ) (a2 : ℚ) (c : Ctx) : (sys a1 a2 c).out 193 0 = [(202, 0)] := by rw [sys_eq]; rfl
theorem n194 (a1 : ℚ) (a2 : ℚ) (c : Ctx) (i : Nat) (m : Msg) : (sys a1 a2 c).node (194, i) m = .obj (beh c (.bin .and 0) 194 i m) := by rw [sys_eq]; rfl
theorem o194_0 (a1 : ℚ) (a2 : ℚ) (c : Ctx) : (sys a1 a2 c).out 194 0 = [(193, 1)] := by rw [sys_eq]; rfl
theorem n196_0 (a1 : ℚ) (a2 : ℚ) (c : Ctx) (m : Msg) : (sys a1 a2 c).node (196, 0) m = .fwd false [((197, 0), m)] := by rw [sys_eq]; rfl
theorem n196_1 (a1 : ℚ) (a2 : ℚ) (c : Ctx) (m : Msg) : (sys a1 a2 c).node (196, 1) m = .fwd false [((197, 1), m)] := by rw [sys_eq]; rfl
theorem n197 (a1 : ℚ) (a2 : ℚ) (c : Ctx) (i : Nat) (m : Msg) : (sys a1 a2 c).node (197, i) m = .obj (beh c (.var (.float 0)) 197 i m) := by rw [sys_eq]; rfl
theorem o197_0 (a1 : ℚ) (a2 : ℚ) (c : Ctx) : (sys a1 a2 c).out 197 0 = [(198, 0)] := by rw [sys_eq]; rfl
theorem n198 (a1 : ℚ) (a2 : ℚ) (c : Ctx) (i : Nat) (m : Msg) : (sys a1 a2 c).node (198, i) m = .fwd false [((201, 1), m)] := by rw [sys_eq]; rfl
theorem n201 (a1 : ℚ) (a2 : ℚ) (c : Ctx) (i : Nat) (m : Msg) : (sys a1 a2 c).node (201, i) m = .obj (beh c (.bin .lt 0) 201 i m) := by rw [sys_eq]; rfl
theorem o201_0 (a1 : ℚ) (a2 : ℚ) (c : Ctx) : (sys a1 a2 c).out 201 0 = [(194, 1)] := by rw [sys_eq]; rfl
theorem n202_0 (a1 : ℚ) (a2 : ℚ) (c : Ctx) (m : Msg) : (sys a1 a2 c).node (202, 0) m = .fwd false [((205, 0), m)] := by rw [sys_eq]; rfl
theorem n202_1 (a1 : ℚ) (a2 : ℚ) (c : Ctx) (m : Msg) : (sys a1 a2 c).node (202, 1) m = .fwd false [] := by rw [sys_eq]; rfl
theorem n205 (a1 : ℚ) (a2 : ℚ) (c : Ctx) (i : Nat) (m : Msg) : (sys a1 a2 c).node (205, i) m = .obj (beh c (.switch [(.float 1)]) 205 i m) := by rw [sys_eq]; rfl
theorem o205_0 (a1 : ℚ) (a2 : ℚ) (c : Ctx) : (sys a1 a2 c).out 205 0 = [(207, 0)] := by rw [sys_eq]; rfl
theorem o205_1 (a1 : ℚ) (a2 : ℚ) (c : Ctx) : (sys a1 a2 c).out 205 1 = [(206, 0)] := by rw [sys_eq]; rfl
theorem n206 (a1 : ℚ) (a2 : ℚ) (c : Ctx) (i : Nat) (m : Msg) : (sys a1 a2 c).node (206, i) m = .fwd false [] := by rw [sys_eq]; rfl
theorem n207 (a1 : ℚ) (a2 : ℚ) (c : Ctx) (i : Nat) (m : Msg) : (sys a1 a2 c).node (207, i) m = castNode .bang [(208, 0)] m := by rw [sys_eq]; rfl
theorem n208 (a1 : ℚ) (a2 : ℚ) (c : Ctx) (i : Nat) (m : Msg) : (sys a1 a2 c).node (208, i) m = .fwd false [((209, 0), m)] := by rw [sys_eq]; rfl
theorem n209 (a1 : ℚ) (a2 : ℚ) (c : Ctx) (i : Nat) (m : Msg) : (sys a1 a2 c).node (209, i) m = .fwd false (castTo .bang [(210, 0)] m ++ (castTo .bang [(161, 0)] m ++ (castTo .bang [(156, 0)] m ++ ([])))) := by rw [sys_eq, seq_T (cs := [some .bang, some .bang, some .bang]) (outs := [[(156, 0)], [(161, 0)], [(210, 0)]]) rfl]; rfl
theorem n210_0 (a1 : ℚ) (a2 : ℚ) (c : Ctx) (m : Msg) : (sys a1 a2 c).node (210, 0) m = .fwd false [((211, 0), m)] := by rw [sys_eq]; rfl
theorem n210_1 (a1 : ℚ) (a2 : ℚ) (c : Ctx) (m : Msg) : (sys a1 a2 c).node (210, 1) m = .fwd false [((211, 1), m)] := by rw [sys_eq]; rfl
theorem n211 (a1 : ℚ) (a2 : ℚ) (c : Ctx) (i : Nat) (m : Msg) : (sys a1 a2 c).node (211, i) m = .obj (beh c (.var (.float 0)) 211 i m) := by rw [sys_eq]; rfl
theorem o211_0 (a1 : ℚ) (a2 : ℚ) (c : Ctx) : (sys a1 a2 c).out 211 0 = [(212, 0)] := by rw [sys_eq]; rfl
theorem n212 (a1 : ℚ) (a2 : ℚ) (c : Ctx) (i : Nat) (m : Msg) : (sys a1 a2 c).node (212, i) m = .fwd false [((201, 1), m)] := by rw [sys_eq]; rfl
theorem n215 (a1 : ℚ) (a2 : ℚ) (c : Ctx) (i : Nat) (m : Msg) : (sys a1 a2 c).node (215, i) m = .fwd false (castTo .float [(210, 1)] m ++ (castTo .float [(201, 0)] m ++ ([]))) := by rw [sys_eq, seq_T (cs := [some .float, some .float]) (outs := [[(201, 0)], [(210, 1)]]) rfl]; rcases m with _ | ⟨_ | _ | _, _⟩ <;> rfl
theorem n216_0 (a1 : ℚ) (a2 : ℚ) (c : Ctx) (m : Msg) : (sys a1 a2 c).node (216, 0) m = .fwd false [((220, 0), m)] := by rw [sys_eq]; rfl
theorem n216_1 (a1 : ℚ) (a2 : ℚ) (c : Ctx) (m : Msg) : (sys a1 a2 c).node (216, 1) m = .fwd false [((220, 1), m)] := by rw [sys_eq]; rfl
theorem n219 (a1 : ℚ) (a2 : ℚ) (c : Ctx) (i : Nat) (m : Msg) : (sys a1 a2 c).node (219, i) m = .fwd false [((253, 0), m)] := by rw [sys_eq]; rfl
theorem n220 (a1 : ℚ) (a2 : ℚ) (c : Ctx) (i : Nat) (m : Msg) : (sys a1 a2 c).node (220, i) m = .obj (beh c (.ite 0) 220 i m) := by rw [sys_eq]; rfl
theorem o220_0 (a1 : ℚ) (a2 : ℚ) (c : Ctx) : (sys a1 a2 c).out 220 0 = [] := by rw [sys_eq]; rfl
theorem o220_1 (a1 : ℚ) (a2 : ℚ) (c : Ctx) : (sys a1 a2 c).out 220 1 = [(219, 0)] := by rw [sys_eq]; rfl
theorem n221_0 (a1 : ℚ) (a2 : ℚ) (c : Ctx) (m : Msg) : (sys a1 a2 c).node (221, 0) m = .fwd false [((226, 0), m)] := by rw [sys_eq]; rfl
theorem n221_1 (a1 : ℚ) (a2 : ℚ) (c : Ctx) (m : Msg) : (sys a1 a2 c).node (221, 1) m = .fwd false [((225, 1), m)] := by rw [sys_eq]; rfl
theorem n224 (a1 : ℚ) (a2 : ℚ) (c : Ctx) (i : Nat) (m : Msg) : (sys a1 a2 c).node (224, i) m = .fwd false [] := by rw [sys_eq]; rfl
theorem n225 (a1 : ℚ) (a2 : ℚ) (c : Ctx) (i : Nat) (m : Msg) : (sys a1 a2 c).node (225, i) m = .obj (beh c (.tabwrite 1) 225 i m) := by rw [sys_eq]; rfl
theorem o225_0 (a1 : ℚ) (a2 : ℚ) (c : Ctx) : (sys a1 a2 c).out 225 0 = [(224, 0)] := by rw [sys_eq]; rfl
theorem n226_0 (a1 : ℚ) (a2 : ℚ) (c : Ctx) (m : Msg) : (sys a1 a2 c).node (226, 0) m = .fwd false [((229, 0), m)] := by rw [sys_eq]; rfl
theorem n226_1 (a1 : ℚ) (a2 : ℚ) (c : Ctx) (m : Msg) : (sys a1 a2 c).node (226, 1) m = .fwd false [] := by rw [sys_eq]; rfl
theorem n229 (a1 : ℚ) (a2 : ℚ) (c : Ctx) (i : Nat) (m : Msg) : (sys a1 a2 c).node (229, i) m = .obj (beh c (.switch [(.sym "set")]) 229 i m) := by rw [sys_eq]; rfl
theorem o229_0 (a1 : ℚ) (a2 : ℚ) (c : Ctx) : (sys a1 a2 c).out 229 0 = [(231, 0)] := by rw [sys_eq]; rfl
theorem o229_1 (a1 : ℚ) (a2 : ℚ) (c : Ctx) : (sys a1 a2 c).out 229 1 = [(230, 0)] := by rw [sys_eq]; rfl
theorem n230 (a1 : ℚ) (a2 : ℚ) (c : Ctx) (i : Nat) (m : Msg) : (sys a1 a2 c).node (230, i) m = .fwd false [((225, 0), m)] := by rw [sys_eq]; rfl
theorem n231 (a1 : ℚ) (a2 : ℚ) (c : Ctx) (i : Nat) (m : Msg) : (sys a1 a2 c).node (231, i) m = .obj (beh c (.slice 1 0) 231 i m) := by rw [sys_eq]; rfl
theorem o231_0 (a1 : ℚ) (a2 : ℚ) (c : Ctx) : (sys a1 a2 c).out 231 0 = [(232, 0)] := by rw [sys_eq]; rfl
theorem o231_1 (a1 : ℚ) (a2 : ℚ) (c : Ctx) : (sys a1 a2 c).out 231 1 = [(232, 0)] := by rw [sys_eq]; rfl
theorem n232 (a1 : ℚ) (a2 : ℚ) (c : Ctx) (i : Nat) (m : Msg) : (sys a1 a2 c).node (232, i) m = .fwd false [((225, 2), m)] := by rw [sys_eq]; rfl
theorem n233_0 (a1 : ℚ) (a2 : ℚ) (c : Ctx) (m : Msg) : (sys a1 a2 c).node (233, 0) m = .fwd false [((238, 0), m)] := by rw [sys_eq]; rfl
theorem n233_1 (a1 : ℚ) (a2 : ℚ) (c : Ctx) (m : Msg) : (sys a1 a2 c).node (233, 1) m = .fwd false [((237, 1), m)] := by rw [sys_eq]; rfl
theorem n236 (a1 : ℚ) (a2 : ℚ) (c : Ctx) (i : Nat) (m : Msg) : (sys a1 a2 c).node (236, i) m = .fwd false [] := by rw [sys_eq]; rfl
theorem n237 (a1 : ℚ) (a2 : ℚ) (c : Ctx) (i : Nat) (m : Msg) : (sys a1 a2 c).node (237, i) m = .obj (beh c (.tabwrite 2) 237 i m) := by rw [sys_eq]; rfl
theorem o237_0 (a1 : ℚ) (a2 : ℚ) (c : Ctx) : (sys a1 a2 c).out 237 0 = [(236, 0)] := by rw [sys_eq]; rfl
theorem n238_0 (a1 : ℚ) (a2 : ℚ) (c : Ctx) (m : Msg) : (sys a1 a2 c).node (238, 0) m = .fwd false [((241, 0), m)] := by rw [sys_eq]; rfl
theorem n238_1 (a1 : ℚ) (a2 : ℚ) (c : Ctx) (m : Msg) : (sys a1 a2 c).node (238, 1) m = .fwd false [] := by rw [sys_eq]; rfl
theorem n241 (a1 : ℚ) (a2 : ℚ) (c : Ctx) (i : Nat) (m : Msg) : (sys a1 a2 c).node (241, i) m = .obj (beh c (.switch [(.sym "set")]) 241 i m) := by rw [sys_eq]; rfl
theorem o241_0 (a1 : ℚ) (a2 : ℚ) (c : Ctx) : (sys a1 a2 c).out 241 0 = [(243, 0)] := by rw [sys_eq]; rfl
theorem o241_1 (a1 : ℚ) (a2 : ℚ) (c : Ctx) : (sys a1 a2 c).out 241 1 = [(242, 0)] := by rw [sys_eq]; rfl
theorem n242 (a1 : ℚ) (a2 : ℚ) (c : Ctx) (i : Nat) (m : Msg) : (sys a1 a2 c).node (242, i) m = .fwd false [((237, 0), m)] := by rw [sys_eq]; rfl
theorem n243 (a1 : ℚ) (a2 : ℚ) (c : Ctx) (i : Nat) (m : Msg) : (sys a1 a2 c).node (243, i) m = .obj (beh c (.slice 1 0) 243 i m) := by rw [sys_eq]; rfl
theorem o243_0 (a1 : ℚ) (a2 : ℚ) (c : Ctx) : (sys a1 a2 c).out 243 0 = [(244, 0)] := by rw [sys_eq]; rfl
theorem o243_1 (a1 : ℚ) (a2 : ℚ) (c : Ctx) : (sys a1 a2 c).out 243 1 = [(244, 0)] := by rw [sys_eq]; rfl
theorem n244 (a1 : ℚ) (a2 : ℚ) (c : Ctx) (i : Nat) (m : Msg) : (sys a1 a2 c).node (244, i) m = .fwd false [((237, 2), m)] := by rw [sys_eq]; rfl
theorem n245 (a1 : ℚ) (a2 : ℚ) (c : Ctx) (i : Nat) (m : Msg) : (sys a1 a2 c).node (245, i) m = .fwd false (castTo .bang [(247, 0)] m ++ (castTo .bang [(248, 0)] m ++ ([]))) := by rw [sys_eq, seq_T (cs := [some .bang, some .bang]) (outs := [[(248, 0)], [(247, 0)]]) rfl]; rfl
theorem n247 (a1 : ℚ) (a2 : ℚ) (c : Ctx) (i : Nat) (m : Msg) : (sys a1 a2 c).node (247, i) m = .fwd true [((13, 0), m)] := by rw [sys_eq]; rfl
theorem n248_0 (a1 : ℚ) (a2 : ℚ) (c : Ctx) (m : Msg) : (sys a1 a2 c).node (248, 0) m = .fwd false [((249, 0), m)] := by rw [sys_eq]; rfl
theorem n248_1 (a1 : ℚ) (a2 : ℚ) (c : Ctx) (m : Msg) : (sys a1 a2 c).node (248, 1) m = .fwd false [((249, 1), m)] := by rw [sys_eq]; rfl
theorem n249 (a1 : ℚ) (a2 : ℚ) (c : Ctx) (i : Nat) (m : Msg) : (sys a1 a2 c).node (249, i) m = .obj (beh c (.var (.float 0)) 249 i m) := by rw [sys_eq]; rfl
theorem o249_0 (a1 : ℚ) (a2 : ℚ) (c : Ctx) : (sys a1 a2 c).out 249 0 = [(250, 0)] := by rw [sys_eq]; rfl
theorem n250 (a1 : ℚ) (a2 : ℚ) (c : Ctx) (i : Nat) (m : Msg) : (sys a1 a2 c).node (250, i) m = .fwd false [((233, 0), m)] := by rw [sys_eq]; rfl
theorem n253 (a1 : ℚ) (a2 : ℚ) (c : Ctx) (i : Nat) (m : Msg) : (sys a1 a2 c).node (253, i) m = .fwd false (castTo .bang [(254, 0)] m ++ (castTo .bang [(245, 0)] m ++ ([((260, 0), m)] ++ ([])))) := by rw [sys_eq, seq_T (cs := [none, some .bang, some .bang]) (outs := [[(260, 0)], [(245, 0)], [(254, 0)]]) rfl]; rfl
theorem n254 (a1 : ℚ) (a2 : ℚ) (c : Ctx) (i : Nat) (m : Msg) : (sys a1 a2 c).node (254, i) m = .obj (beh c (.msg [.lit (.float 0)]) 254 i m) := by rw [sys_eq]; rfl
theorem o254_0 (a1 : ℚ) (a2 : ℚ) (c : Ctx) : (sys a1 a2 c).out 254 0 = [(221, 0)] := by rw [sys_eq]; rfl
theorem n255_0 (a1 : ℚ) (a2 : ℚ) (c : Ctx) (m : Msg) : (sys a1 a2 c).node (255, 0) m = .fwd false [((256, 0), m)] := by rw [sys_eq]; rfl
theorem n255_1 (a1 : ℚ) (a2 : ℚ) (c : Ctx) (m : Msg) : (sys a1 a2 c).node (255, 1) m = .fwd false [((256, 1), m)] := by rw [sys_eq]; rfl
theorem n256 (a1 : ℚ) (a2 : ℚ) (c : Ctx) (i : Nat) (m : Msg) : (sys a1 a2 c).node (256, i) m = .obj (beh c (.var (.float 0)) 256 i m) := by rw [sys_eq]; rfl
theorem o256_0 (a1 : ℚ) (a2 : ℚ) (c : Ctx) : (sys a1 a2 c).out 256 0 = [(257, 0)] := by rw [sys_eq]; rfl
theorem n257 (a1 : ℚ) (a2 : ℚ) (c : Ctx) (i : Nat) (m : Msg) : (sys a1 a2 c).node (257, i) m = .fwd false [((67, 0), m)] := by rw [sys_eq]; rfl
theorem n260 (a1 : ℚ) (a2 : ℚ) (c : Ctx) (i : Nat) (m : Msg) : (sys a1 a2 c).node (260, i) m = .fwd false (castTo .bang [(267, 0)] m ++ ([((261, 0), m)] ++ (castTo .bang [(255, 0)] m ++ ([])))) := by rw [sys_eq, seq_T (cs := [some .bang, none, some .bang]) (outs := [[(255, 0)], [(261, 0)], [(267, 0)]]) rfl]; rfl
theorem n261_0 (a1 : ℚ) (a2 : ℚ) (c : Ctx) (m : Msg) : (sys a1 a2 c).node (261, 0) m = .fwd false [((263, 0), m), ((265, 0), m)] := by rw [sys_eq]; rfl
theorem n263 (a1 : ℚ) (a2 : ℚ) (c : Ctx) (i : Nat) (m : Msg) : (sys a1 a2 c).node (263, i) m = .obj (beh c (.slice 1 1) 263 i m) := by rw [sys_eq]; rfl
theorem o263_0 (a1 : ℚ) (a2 : ℚ) (c : Ctx) : (sys a1 a2 c).out 263 0 = [(264, 0)] := by rw [sys_eq]; rfl
theorem o263_1 (a1 : ℚ) (a2 : ℚ) (c : Ctx) : (sys a1 a2 c).out 263 1 = [] := by rw [sys_eq]; rfl
theorem n264 (a1 : ℚ) (a2 : ℚ) (c : Ctx) (i : Nat) (m : Msg) : (sys a1 a2 c).node (264, i) m = .fwd false [] := by rw [sys_eq]; rfl
theorem n265 (a1 : ℚ) (a2 : ℚ) (c : Ctx) (i : Nat) (m : Msg) : (sys a1 a2 c).node (265, i) m = .obj (beh c (.slice 0 1) 265 i m) := by rw [sys_eq]; rfl
theorem o265_0 (a1 : ℚ) (a2 : ℚ) (c : Ctx) : (sys a1 a2 c).out 265 0 = [(266, 0)] := by rw [sys_eq]; rfl
theorem o265_1 (a1 : ℚ) (a2 : ℚ) (c : Ctx) : (sys a1 a2 c).out 265 1 = [] := by rw [sys_eq]; rfl
theorem n266 (a1 : ℚ) (a2 : ℚ) (c : Ctx) (i : Nat) (m : Msg) : (sys a1 a2 c).node (266, i) m = .fwd false [((65, 0), m)] := by rw [sys_eq]; rfl
theorem n267 (a1 : ℚ) (a2 : ℚ) (c : Ctx) (i : Nat) (m : Msg) : (sys a1 a2 c).node (267, i) m = .obj (beh c (.msg [.lit (.float 0)]) 267 i m) := by rw [sys_eq]; rfl
theorem o267_0 (a1 : ℚ) (a2 : ℚ) (c : Ctx) : (sys a1 a2 c).out 267 0 = [(66, 0)] := by rw [sys_eq]; rfl
theorem n270 (a1 : ℚ) (a2 : ℚ) (c : Ctx) (i : Nat) (m : Msg) : (sys a1 a2 c).node (270, i) m = .obj (beh c (.pack [0, 0]) 270 i m) := by rw [sys_eq]; rfl
theorem o270_0 (a1 : ℚ) (a2 : ℚ) (c : Ctx) : (sys a1 a2 c).out 270 0 = [(162, 0)] := by rw [sys_eq]; rfl
theorem n271 (a1 : ℚ) (a2 : ℚ) (c : Ctx) (i : Nat) (m : Msg) : (sys a1 a2 c).node (271, i) m = .fwd false ([((216, 1), m)] ++ ([])) := by rw [sys_eq, seq_T (cs := [none]) (outs := [[(216, 1)]]) rfl]; rfl
theorem n272_0 (a1 : ℚ) (a2 : ℚ) (c : Ctx) (m : Msg) : (sys a1 a2 c).node (272, 0) m = .fwd false [((328, 0), m)] := by rw [sys_eq]; rfl
theorem n274_0 (a1 : ℚ) (a2 : ℚ) (c : Ctx) (m : Msg) : (sys a1 a2 c).node (274, 0) m = .fwd false [((300, 0), m)] := by rw [sys_eq]; rfl
theorem n276 (a1 : ℚ) (a2 : ℚ) (c : Ctx) (i : Nat) (m : Msg) : (sys a1 a2 c).node (276, i) m = .fwd false (castTo .float [(282, 0)] m ++ (castTo .float [(277, 0)] m ++ ([]))) := by rw [sys_eq, seq_T (cs := [some .float, some .float]) (outs := [[(277, 0)], [(282, 0)]]) rfl]; rcases m with _ | ⟨_ | _ | _, _⟩ <;> rfl
theorem n277_0 (a1 : ℚ) (a2 : ℚ) (c : Ctx) (m : Msg) : (sys a1 a2 c).node (277, 0) m = .fwd false [((281, 0), m)] := by rw [sys_eq]; rfl
theorem n277_1 (a1 : ℚ) (a2 : ℚ) (c : Ctx) (m : Msg) : (sys a1 a2 c).node (277, 1) m = .fwd false [((281, 1), m)] := by rw [sys_eq]; rfl
theorem n280 (a1 : ℚ) (a2 : ℚ) (c : Ctx) (i : Nat) (m : Msg) : (sys a1 a2 c).node (280, i) m = .fwd false [((314, 0), m)] := by rw [sys_eq]; rfl
theorem n281 (a1 : ℚ) (a2 : ℚ) (c : Ctx) (i : Nat) (m : Msg) : (sys a1 a2 c).node (281, i) m = .obj (beh c (.ite 0) 281 i m) := by rw [sys_eq]; rfl
theorem o281_0 (a1 : ℚ) (a2 : ℚ) (c : Ctx) : (sys a1 a2 c).out 281 0 = [] := by rw [sys_eq]; rfl
theorem o281_1 (a1 : ℚ) (a2 : ℚ) (c : Ctx) : (sys a1 a2 c).out 281 1 = [(280, 0)] := by rw [sys_eq]; rfl
theorem n282 (a1 : ℚ) (a2 : ℚ) (c : Ctx) (i : Nat) (m : Msg) : (sys a1 a2 c).node (282, i) m = .obj (beh c (.bin .lt 0) 282 i m) := by rw [sys_eq]; rfl
theorem o282_0 (a1 : ℚ) (a2 : ℚ) (c : Ctx) : (sys a1 a2 c).out 282 0 = [(277, 1)] := by rw [sys_eq]; rfl
theorem n283 (a1 : ℚ) (a2 : ℚ) (c : Ctx) (i : Nat) (m : Msg) : (sys a1 a2 c).node (283, i) m = .fwd false (castTo .float [(282, 1)] m ++ (castTo .float [(290, 0)] m ++ ([]))) := by rw [sys_eq, seq_T (cs := [some .float, some .float]) (outs := [[(290, 0)], [(282, 1)]]) rfl]; rcases m with _ | ⟨_ | _ | _, _⟩ <;> rfl
theorem n284_0 (a1 : ℚ) (a2 : ℚ) (c : Ctx) (m : Msg) : (sys a1 a2 c).node (284, 0) m = .fwd false [((285, 0), m)] := by rw [sys_eq]; rfl
theorem n284_1 (a1 : ℚ) (a2 : ℚ) (c : Ctx) (m : Msg) : (sys a1 a2 c).node (284, 1) m = .fwd false [((285, 1), m)] := by rw [sys_eq]; rfl
theorem n285 (a1 : ℚ) (a2 : ℚ) (c : Ctx) (i : Nat) (m : Msg) : (sys a1 a2 c).node (285, i) m = .obj (beh c (.var (.float 0)) 285 i m) := by rw [sys_eq]; rfl
theorem o285_0 (a1 : ℚ) (a2 : ℚ) (c : Ctx) : (sys a1 a2 c).out 285 0 = [(286, 0)] := by rw [sys_eq]; rfl
theorem n286 (a1 : ℚ) (a2 : ℚ) (c : Ctx) (i : Nat) (m : Msg) : (sys a1 a2 c).node (286, i) m = .fwd false [((276, 0), m)] := by rw [sys_eq]; rfl
theorem n289 (a1 : ℚ) (a2 : ℚ) (c : Ctx) (i : Nat) (m : Msg) : (sys a1 a2 c).node (289, i) m = .obj (beh c (.bink .add 1) 289 i m) := by rw [sys_eq]; rfl
theorem o289_0 (a1 : ℚ) (a2 : ℚ) (c : Ctx) : (sys a1 a2 c).out 289 0 = [(284, 0)] := by rw [sys_eq]; rfl
theorem n290 (a1 : ℚ) (a2 : ℚ) (c : Ctx) (i : Nat) (m : Msg) : (sys a1 a2 c).node (290, i) m = .obj (beh c (.msg [.lit (.float 0)]) 290 i m) := by rw [sys_eq]; rfl
theorem o290_0 (a1 : ℚ) (a2 : ℚ) (c : Ctx) : (sys a1 a2 c).out 290 0 = [(284, 0)] := by rw [sys_eq]; rfl
theorem n291 (a1 : ℚ) (a2 : ℚ) (c : Ctx) (i : Nat) (m : Msg) : (sys a1 a2 c).node (291, i) m = .fwd false [((354, 0), m)] := by rw [sys_eq]; rfl
theorem n292_0 (a1 : ℚ) (a2 : ℚ) (c : Ctx) (m : Msg) : (sys a1 a2 c).node (292, 0) m = .fwd false [((298, 0), m)] := by rw [sys_eq]; rfl
theorem n292_1 (a1 : ℚ) (a2 : ℚ) (c : Ctx) (m : Msg) : (sys a1 a2 c).node (292, 1) m = .fwd false [((297, 1), m)] := by rw [sys_eq]; rfl
theorem n295 (a1 : ℚ) (a2 : ℚ) (c : Ctx) (i : Nat) (m : Msg) : (sys a1 a2 c).node (295, i) m = .fwd false [] := by rw [sys_eq]; rfl
theorem n296 (a1 : ℚ) (a2 : ℚ) (c : Ctx) (i : Nat) (m : Msg) : (sys a1 a2 c).node (296, i) m = .fwd false [((283, 0), m)] := by rw [sys_eq]; rfl
theorem n297 (a1 : ℚ) (a2 : ℚ) (c : Ctx) (i : Nat) (m : Msg) : (sys a1 a2 c).node (297, i) m = .obj (beh c (.bin .ge 1) 297 i m) := by rw [sys_eq]; rfl
theorem o297_0 (a1 : ℚ) (a2 : ℚ) (c : Ctx) : (sys a1 a2 c).out 297 0 = [(299, 1)] := by rw [sys_eq]; rfl
theorem n298 (a1 : ℚ) (a2 : ℚ) (c : Ctx) (i : Nat) (m : Msg) : (sys a1 a2 c).node (298, i) m = .fwd false ([((297, 0), m)] ++ ([((299, 0), m)] ++ ([]))) := by rw [sys_eq, seq_T (cs := [none, none]) (outs := [[(299, 0)], [(297, 0)]]) rfl]; rfl
theorem n299 (a1 : ℚ) (a2 : ℚ) (c : Ctx) (i : Nat) (m : Msg) : (sys a1 a2 c).node (299, i) m = .obj (beh c (.ite 0) 299 i m) := by rw [sys_eq]; rfl
theorem o299_0 (a1 : ℚ) (a2 : ℚ) (c : Ctx) : (sys a1 a2 c).out 299 0 = [(295, 0)] := by rw [sys_eq]; rfl
theorem o299_1 (a1 : ℚ) (a2 : ℚ) (c : Ctx) : (sys a1 a2 c).out 299 1 = [(296, 0)] := by rw [sys_eq]; rfl
theorem n300_0 (a1 : ℚ) (a2 : ℚ) (c : Ctx) (m : Msg) : (sys a1 a2 c).node (300, 0) m = .fwd false [((302, 0), m)] := by rw [sys_eq]; rfl
theorem n300_1 (a1 : ℚ) (a2 : ℚ) (c : Ctx) (m : Msg) : (sys a1 a2 c).node (300, 1) m = .fwd false [((302, 1), m)] := by rw [sys_eq]; rfl
theorem n302_0 (a1 : ℚ) (a2 : ℚ) (c : Ctx) (m : Msg) : (sys a1 a2 c).node (302, 0) m = .fwd false [((303, 0), m)] := by rw [sys_eq]; rfl
theorem n302_1 (a1 : ℚ) (a2 : ℚ) (c : Ctx) (m : Msg) : (sys a1 a2 c).node (302, 1) m = .fwd false [((303, 1), m)] := by rw [sys_eq]; rfl
theorem n303 (a1 : ℚ) (a2 : ℚ) (c : Ctx) (i : Nat) (m : Msg) : (sys a1 a2 c).node (303, i) m = .obj (beh c (.var (.float 0)) 303 i m) := by rw [sys_eq]; rfl
theorem o303_0 (a1 : ℚ) (a2 : ℚ) (c : Ctx) : (sys a1 a2 c).out 303 0 = [(304, 0)] := by rw [sys_eq]; rfl
theorem n304 (a1 : ℚ) (a2 : ℚ) (c : Ctx) (i : Nat) (m : Msg) : (sys a1 a2 c).node (304, i) m = .fwd false [((313, 0), m)] := by rw [sys_eq]; rfl
theorem n308 (a1 : ℚ) (a2 : ℚ) (c : Ctx) (i : Nat) (m : Msg) : (sys a1 a2 c).node (308, i) m = .fwd false [((292, 0), m)] := by rw [sys_eq]; rfl
theorem n309 (a1 : ℚ) (a2 : ℚ) (c : Ctx) (i : Nat) (m : Msg) : (sys a1 a2 c).node (309, i) m = .obj (beh c (.ite 0) 309 i m) := by rw [sys_eq]; rfl
theorem o309_0 (a1 : ℚ) (a2 : ℚ) (c : Ctx) : (sys a1 a2 c).out 309 0 = [(312, 0)] := by rw [sys_eq]; rfl
theorem o309_1 (a1 : ℚ) (a2 : ℚ) (c : Ctx) : (sys a1 a2 c).out 309 1 = [(311, 0)] := by rw [sys_eq]; rfl
theorem n310 (a1 : ℚ) (a2 : ℚ) (c : Ctx) (i : Nat) (m : Msg) : (sys a1 a2 c).node (310, i) m = .obj (beh c (.bink .gt 0) 310 i m) := by rw [sys_eq]; rfl
theorem o310_0 (a1 : ℚ) (a2 : ℚ) (c : Ctx) : (sys a1 a2 c).out 310 0 = [(309, 1)] := by rw [sys_eq]; rfl
theorem n311 (a1 : ℚ) (a2 : ℚ) (c : Ctx) (i : Nat) (m : Msg) : (sys a1 a2 c).node (311, i) m = .obj (beh c (.un .floor) 311 i m) := by rw [sys_eq]; rfl
theorem o311_0 (a1 : ℚ) (a2 : ℚ) (c : Ctx) : (sys a1 a2 c).out 311 0 = [(308, 0)] := by rw [sys_eq]; rfl
theorem n312 (a1 : ℚ) (a2 : ℚ) (c : Ctx) (i : Nat) (m : Msg) : (sys a1 a2 c).node (312, i) m = .obj (beh c (.un .ceil) 312 i m) := by rw [sys_eq]; rfl
theorem o312_0 (a1 : ℚ) (a2 : ℚ) (c : Ctx) : (sys a1 a2 c).out 312 0 = [(308, 0)] := by rw [sys_eq]; rfl
theorem n313 (a1 : ℚ) (a2 : ℚ) (c : Ctx) (i : Nat) (m : Msg) : (sys a1 a2 c).node (313, i) m = .fwd false ([((310, 0), m)] ++ ([((309, 0), m)] ++ ([]))) := by rw [sys_eq, seq_T (cs := [none, none]) (outs := [[(309, 0)], [(310, 0)]]) rfl]; rfl
theorem n314 (a1 : ℚ) (a2 : ℚ) (c : Ctx) (i : Nat) (m : Msg) : (sys a1 a2 c).node (314, i) m = .fwd false (castTo .float [(291, 0)] m ++ (castTo .float [(289, 0)] m ++ ([]))) := by rw [sys_eq, seq_T (cs := [some .float, some .float]) (outs := [[(289, 0)], [(291, 0)]]) rfl]; rcases m with _ | ⟨_ | _ | _, _⟩ <;> rfl
theorem n315 (a1 : ℚ) (a2 : ℚ) (c : Ctx) (i : Nat) (m : Msg) : (sys a1 a2 c).node (315, i) m = .obj (beh c (.var (.float a1)) 315 i m) := by rw [sys_eq]; rfl
theorem o315_0 (a1 : ℚ) (a2 : ℚ) (c : Ctx) : (sys a1 a2 c).out 315 0 = [(274, 0)] := by rw [sys_eq]; rfl
theorem n316_0 (a1 : ℚ) (a2 : ℚ) (c : Ctx) (m : Msg) : (sys a1 a2 c).node (316, 0) m = .fwd false [((321, 0), m)] := by rw [sys_eq]; rfl
theorem n316_1 (a1 : ℚ) (a2 : ℚ) (c : Ctx) (m : Msg) : (sys a1 a2 c).node (316, 1) m = .fwd false [((320, 1), m)] := by rw [sys_eq]; rfl
theorem n319 (a1 : ℚ) (a2 : ℚ) (c : Ctx) (i : Nat) (m : Msg) : (sys a1 a2 c).node (319, i) m = .fwd false [] := by rw [sys_eq]; rfl
theorem n320 (a1 : ℚ) (a2 : ℚ) (c : Ctx) (i : Nat) (m : Msg) : (sys a1 a2 c).node (320, i) m = .obj (beh c (.tabwrite 1) 320 i m) := by rw [sys_eq]; rfl
theorem o320_0 (a1 : ℚ) (a2 : ℚ) (c : Ctx) : (sys a1 a2 c).out 320 0 = [(319, 0)] := by rw [sys_eq]; rfl
theorem n321_0 (a1 : ℚ) (a2 : ℚ) (c : Ctx) (m : Msg) : (sys a1 a2 c).node (321, 0) m = .fwd false [((324, 0), m)] := by rw [sys_eq]; rfl
theorem n321_1 (a1 : ℚ) (a2 : ℚ) (c : Ctx) (m : Msg) : (sys a1 a2 c).node (321, 1) m = .fwd false [] := by rw [sys_eq]; rfl
theorem n324 (a1 : ℚ) (a2 : ℚ) (c : Ctx) (i : Nat) (m : Msg) : (sys a1 a2 c).node (324, i) m = .obj (beh c (.switch [(.sym "set")]) 324 i m) := by rw [sys_eq]; rfl
theorem o324_0 (a1 : ℚ) (a2 : ℚ) (c : Ctx) : (sys a1 a2 c).out 324 0 = [(326, 0)] := by rw [sys_eq]; rfl
theorem o324_1 (a1 : ℚ) (a2 : ℚ) (c : Ctx) : (sys a1 a2 c).out 324 1 = [(325, 0)] := by rw [sys_eq]; rfl
theorem n325 (a1 : ℚ) (a2 : ℚ) (c : Ctx) (i : Nat) (m : Msg) : (sys a1 a2 c).node (325, i) m = .fwd false [((320, 0), m)] := by rw [sys_eq]; rfl
theorem n326 (a1 : ℚ) (a2 : ℚ) (c : Ctx) (i : Nat) (m : Msg) : (sys a1 a2 c).node (326, i) m = .obj (beh c (.slice 1 0) 326 i m) := by rw [sys_eq]; rfl
theorem o326_0 (a1 : ℚ) (a2 : ℚ) (c : Ctx) : (sys a1 a2 c).out 326 0 = [(327, 0)] := by rw [sys_eq]; rfl
theorem o326_1 (a1 : ℚ) (a2 : ℚ) (c : Ctx) : (sys a1 a2 c).out 326 1 = [(327, 0)] := by rw [sys_eq]; rfl
theorem n327 (a1 : ℚ) (a2 : ℚ) (c : Ctx) (i : Nat) (m : Msg) : (sys a1 a2 c).node (327, i) m = .fwd false [((320, 2), m)] := by rw [sys_eq]; rfl
theorem n328 (a1 : ℚ) (a2 : ℚ) (c : Ctx) (i : Nat) (m : Msg) : (sys a1 a2 c).node (328, i) m = .fwd false (castTo .bang [(329, 0)] m ++ (castTo .bang [(315, 0)] m ++ ([]))) := by rw [sys_eq, seq_T (cs := [some .bang, some .bang]) (outs := [[(315, 0)], [(329, 0)]]) rfl]; rfl
theorem n329 (a1 : ℚ) (a2 : ℚ) (c : Ctx) (i : Nat) (m : Msg) : (sys a1 a2 c).node (329, i) m = .obj (beh c (.msg [.lit (.float 0)]) 329 i m) := by rw [sys_eq]; rfl
theorem o329_0 (a1 : ℚ) (a2 : ℚ) (c : Ctx) : (sys a1 a2 c).out 329 0 = [(330, 0)] := by rw [sys_eq]; rfl
theorem n330 (a1 : ℚ) (a2 : ℚ) (c : Ctx) (i : Nat) (m : Msg) : (sys a1 a2 c).node (330, i) m = .fwd true [((13, 0), m)] := by rw [sys_eq]; rfl
theorem n331_0 (a1 : ℚ) (a2 : ℚ) (c : Ctx) (m : Msg) : (sys a1 a2 c).node (331, 0) m = .fwd false [((335, 0), m)] := by rw [sys_eq]; rfl
theorem n333 (a1 : ℚ) (a2 : ℚ) (c : Ctx) (i : Nat) (m : Msg) : (sys a1 a2 c).node (333, i) m = .fwd false [((353, 0), m)] := by rw [sys_eq]; rfl
theorem n334 (a1 : ℚ) (a2 : ℚ) (c : Ctx) (i : Nat) (m : Msg) : (sys a1 a2 c).node (334, i) m = .obj (beh c (.tabread 1) 334 i m) := by rw [sys_eq]; rfl
theorem o334_0 (a1 : ℚ) (a2 : ℚ) (c : Ctx) : (sys a1 a2 c).out 334 0 = [(333, 0)] := by rw [sys_eq]; rfl
theorem n335_0 (a1 : ℚ) (a2 : ℚ) (c : Ctx) (m : Msg) : (sys a1 a2 c).node (335, 0) m = .fwd false [((338, 0), m)] := by rw [sys_eq]; rfl
theorem n335_1 (a1 : ℚ) (a2 : ℚ) (c : Ctx) (m : Msg) : (sys a1 a2 c).node (335, 1) m = .fwd false [] := by rw [sys_eq]; rfl
theorem n338 (a1 : ℚ) (a2 : ℚ) (c : Ctx) (i : Nat) (m : Msg) : (sys a1 a2 c).node (338, i) m = .obj (beh c (.switch [(.sym "set")]) 338 i m) := by rw [sys_eq]; rfl
theorem o338_0 (a1 : ℚ) (a2 : ℚ) (c : Ctx) : (sys a1 a2 c).out 338 0 = [(340, 0)] := by rw [sys_eq]; rfl
theorem o338_1 (a1 : ℚ) (a2 : ℚ) (c : Ctx) : (sys a1 a2 c).out 338 1 = [(339, 0)] := by rw [sys_eq]; rfl
theorem n339 (a1 : ℚ) (a2 : ℚ) (c : Ctx) (i : Nat) (m : Msg) : (sys a1 a2 c).node (339, i) m = .fwd false [((344, 0), m)] := by rw [sys_eq]; rfl
theorem n340 (a1 : ℚ) (a2 : ℚ) (c : Ctx) (i : Nat) (m : Msg) : (sys a1 a2 c).node (340, i) m = .obj (beh c (.slice 1 0) 340 i m) := by rw [sys_eq]; rfl
theorem o340_0 (a1 : ℚ) (a2 : ℚ) (c : Ctx) : (sys a1 a2 c).out 340 0 = [(341, 0)] := by rw [sys_eq]; rfl
theorem o340_1 (a1 : ℚ) (a2 : ℚ) (c : Ctx) : (sys a1 a2 c).out 340 1 = [(341, 0)] := by rw [sys_eq]; rfl
theorem n341 (a1 : ℚ) (a2 : ℚ) (c : Ctx) (i : Nat) (m : Msg) : (sys a1 a2 c).node (341, i) m = .fwd false [((334, 1), m)] := by rw [sys_eq]; rfl
theorem n342 (a1 : ℚ) (a2 : ℚ) (c : Ctx) (i : Nat) (m : Msg) : (sys a1 a2 c).node (342, i) m = .obj (beh c (.system) 342 i m) := by rw [sys_eq]; rfl
theorem o342_0 (a1 : ℚ) (a2 : ℚ) (c : Ctx) : (sys a1 a2 c).out 342 0 = [(352, 0)] := by rw [sys_eq]; rfl
theorem n343 (a1 : ℚ) (a2 : ℚ) (c : Ctx) (i : Nat) (m : Msg) : (sys a1 a2 c).node (343, i) m = .obj (beh c (.bink .max 0) 343 i m) := by rw [sys_eq]; rfl
theorem o343_0 (a1 : ℚ) (a2 : ℚ) (c : Ctx) : (sys a1 a2 c).out 343 0 = [(350, 0)] := by rw [sys_eq]; rfl
theorem n344 (a1 : ℚ) (a2 : ℚ) (c : Ctx) (i : Nat) (m : Msg) : (sys a1 a2 c).node (344, i) m = .fwd false (castTo .bang [(345, 0)] m ++ (castTo .float [(343, 0)] m ++ ([]))) := by rw [sys_eq, seq_T (cs := [some .float, some .bang]) (outs := [[(343, 0)], [(345, 0)]]) rfl]; rcases m with _ | ⟨_ | _ | _, _⟩ <;> rfl
theorem n345_0 (a1 : ℚ) (a2 : ℚ) (c : Ctx) (m : Msg) : (sys a1 a2 c).node (345, 0) m = .fwd false [((348, 0), m)] := by rw [sys_eq]; rfl
theorem n345_1 (a1 : ℚ) (a2 : ℚ) (c : Ctx) (m : Msg) : (sys a1 a2 c).node (345, 1) m = .fwd false [((348, 1), m)] := by rw [sys_eq]; rfl
theorem n347 (a1 : ℚ) (a2 : ℚ) (c : Ctx) (i : Nat) (m : Msg) : (sys a1 a2 c).node (347, i) m = .fwd false [((351, 0), m)] := by rw [sys_eq]; rfl
theorem n348 (a1 : ℚ) (a2 : ℚ) (c : Ctx) (i : Nat) (m : Msg) : (sys a1 a2 c).node (348, i) m = .obj (beh c (.var (.sym "1-used")) 348 i m) := by rw [sys_eq]; rfl
theorem o348_0 (a1 : ℚ) (a2 : ℚ) (c : Ctx) : (sys a1 a2 c).out 348 0 = [(347, 0)] := by rw [sys_eq]; rfl
theorem n350 (a1 : ℚ) (a2 : ℚ) (c : Ctx) (i : Nat) (m : Msg) : (sys a1 a2 c).node (350, i) m = .obj (beh c (.bin .min 0) 350 i m) := by rw [sys_eq]; rfl
theorem o350_0 (a1 : ℚ) (a2 : ℚ) (c : Ctx) : (sys a1 a2 c).out 350 0 = [(334, 0)] := by rw [sys_eq]; rfl
theorem n351 (a1 : ℚ) (a2 : ℚ) (c : Ctx) (i : Nat) (m : Msg) : (sys a1 a2 c).node (351, i) m = .obj (beh c (.msg [.lit (.sym "table"), .arg 0, .lit (.sym "length")]) 351 i m) := by rw [sys_eq]; rfl
theorem o351_0 (a1 : ℚ) (a2 : ℚ) (c : Ctx) : (sys a1 a2 c).out 351 0 = [(342, 0)] := by rw [sys_eq]; rfl
theorem n352 (a1 : ℚ) (a2 : ℚ) (c : Ctx) (i : Nat) (m : Msg) : (sys a1 a2 c).node (352, i) m = .obj (beh c (.bink .sub 1) 352 i m) := by rw [sys_eq]; rfl
theorem o352_0 (a1 : ℚ) (a2 : ℚ) (c : Ctx) : (sys a1 a2 c).out 352 0 = [(350, 1)] := by rw [sys_eq]; rfl
theorem n353 (a1 : ℚ) (a2 : ℚ) (c : Ctx) (i : Nat) (m : Msg) : (sys a1 a2 c).node (353, i) m = .obj (beh c (.bink .neq 0) 353 i m) := by rw [sys_eq]; rfl
theorem o353_0 (a1 : ℚ) (a2 : ℚ) (c : Ctx) : (sys a1 a2 c).out 353 0 = [(355, 1)] := by rw [sys_eq]; rfl
theorem n354 (a1 : ℚ) (a2 : ℚ) (c : Ctx) (i : Nat) (m : Msg) : (sys a1 a2 c).node (354, i) m = .fwd false (castTo .float [(331, 0)] m ++ (castTo .float [(355, 0)] m ++ ([]))) := by rw [sys_eq, seq_T (cs := [some .float, some .float]) (outs := [[(355, 0)], [(331, 0)]]) rfl]; rcases m with _ | ⟨_ | _ | _, _⟩ <;> rfl
theorem n355_0 (a1 : ℚ) (a2 : ℚ) (c : Ctx) (m : Msg) : (sys a1 a2 c).node (355, 0) m = .fwd false [((359, 0), m)] := by rw [sys_eq]; rfl
theorem n355_1 (a1 : ℚ) (a2 : ℚ) (c : Ctx) (m : Msg) : (sys a1 a2 c).node (355, 1) m = .fwd false [((359, 1), m)] := by rw [sys_eq]; rfl
theorem n358 (a1 : ℚ) (a2 : ℚ) (c : Ctx) (i : Nat) (m : Msg) : (sys a1 a2 c).node (358, i) m = .fwd false [((386, 0), m)] := by rw [sys_eq]; rfl
theorem n359 (a1 : ℚ) (a2 : ℚ) (c : Ctx) (i : Nat) (m : Msg) : (sys a1 a2 c).node (359, i) m = .obj (beh c (.ite 0) 359 i m) := by rw [sys_eq]; rfl
theorem o359_0 (a1 : ℚ) (a2 : ℚ) (c : Ctx) : (sys a1 a2 c).out 359 0 = [] := by rw [sys_eq]; rfl
theorem o359_1 (a1 : ℚ) (a2 : ℚ) (c : Ctx) : (sys a1 a2 c).out 359 1 = [(358, 0)] := by rw [sys_eq]; rfl
theorem n360 (a1 : ℚ) (a2 : ℚ) (c : Ctx) (i : Nat) (m : Msg) : (sys a1 a2 c).node (360, i) m = .fwd false [((11, 0), m)] := by rw [sys_eq]; rfl
theorem n361 (a1 : ℚ) (a2 : ℚ) (c : Ctx) (i : Nat) (m : Msg) : (sys a1 a2 c).node (361, i) m = .fwd false [((4, 0), m)] := by rw [sys_eq]; rfl
theorem n362 (a1 : ℚ) (a2 : ℚ) (c : Ctx) (i : Nat) (m : Msg) : (sys a1 a2 c).node (362, i) m = .fwd false [((5, 0), m)] := by rw [sys_eq]; rfl
theorem n363 (a1 : ℚ) (a2 : ℚ) (c : Ctx) (i : Nat) (m : Msg) : (sys a1 a2 c).node (363, i) m = .obj (beh c (.msg [.lit (.float 0)]) 363 i m) := by rw [sys_eq]; rfl
theorem o363_0 (a1 : ℚ) (a2 : ℚ) (c : Ctx) : (sys a1 a2 c).out 363 0 = [(362, 0)] := by rw [sys_eq]; rfl
theorem n364_0 (a1 : ℚ) (a2 : ℚ) (c : Ctx) (m : Msg) : (sys a1 a2 c).node (364, 0) m = .fwd false [((368, 0), m)] := by rw [sys_eq]; rfl
theorem n366 (a1 : ℚ) (a2 : ℚ) (c : Ctx) (i : Nat) (m : Msg) : (sys a1 a2 c).node (366, i) m = .fwd false [((361, 0), m)] := by rw [sys_eq]; rfl
theorem n367 (a1 : ℚ) (a2 : ℚ) (c : Ctx) (i : Nat) (m : Msg) : (sys a1 a2 c).node (367, i) m = .obj (beh c (.tabread 0) 367 i m) := by rw [sys_eq]; rfl
theorem o367_0 (a1 : ℚ) (a2 : ℚ) (c : Ctx) : (sys a1 a2 c).out 367 0 = [(366, 0)] := by rw [sys_eq]; rfl
theorem n368_0 (a1 : ℚ) (a2 : ℚ) (c : Ctx) (m : Msg) : (sys a1 a2 c).node (368, 0) m = .fwd false [((371, 0), m)] := by rw [sys_eq]; rfl
theorem n368_1 (a1 : ℚ) (a2 : ℚ) (c : Ctx) (m : Msg) : (sys a1 a2 c).node (368, 1) m = .fwd false [] := by rw [sys_eq]; rfl
theorem n371 (a1 : ℚ) (a2 : ℚ) (c : Ctx) (i : Nat) (m : Msg) : (sys a1 a2 c).node (371, i) m = .obj (beh c (.switch [(.sym "set")]) 371 i m) := by rw [sys_eq]; rfl
theorem o371_0 (a1 : ℚ) (a2 : ℚ) (c : Ctx) : (sys a1 a2 c).out 371 0 = [(373, 0)] := by rw [sys_eq]; rfl
theorem o371_1 (a1 : ℚ) (a2 : ℚ) (c : Ctx) : (sys a1 a2 c).out 371 1 = [(372, 0)] := by rw [sys_eq]; rfl
theorem n372 (a1 : ℚ) (a2 : ℚ) (c : Ctx) (i : Nat) (m : Msg) : (sys a1 a2 c).node (372, i) m = .fwd false [((377, 0), m)] := by rw [sys_eq]; rfl
theorem n373 (a1 : ℚ) (a2 : ℚ) (c : Ctx) (i : Nat) (m : Msg) : (sys a1 a2 c).node (373, i) m = .obj (beh c (.slice 1 0) 373 i m) := by rw [sys_eq]; rfl
theorem o373_0 (a1 : ℚ) (a2 : ℚ) (c : Ctx) : (sys a1 a2 c).out 373 0 = [(374, 0)] := by rw [sys_eq]; rfl
theorem o373_1 (a1 : ℚ) (a2 : ℚ) (c : Ctx) : (sys a1 a2 c).out 373 1 = [(374, 0)] := by rw [sys_eq]; rfl
theorem n374 (a1 : ℚ) (a2 : ℚ) (c : Ctx) (i : Nat) (m : Msg) : (sys a1 a2 c).node (374, i) m = .fwd false [((367, 1), m)] := by rw [sys_eq]; rfl
theorem n375 (a1 : ℚ) (a2 : ℚ) (c : Ctx) (i : Nat) (m : Msg) : (sys a1 a2 c).node (375, i) m = .obj (beh c (.system) 375 i m) := by rw [sys_eq]; rfl
theorem o375_0 (a1 : ℚ) (a2 : ℚ) (c : Ctx) : (sys a1 a2 c).out 375 0 = [(385, 0)] := by rw [sys_eq]; rfl
theorem n376 (a1 : ℚ) (a2 : ℚ) (c : Ctx) (i : Nat) (m : Msg) : (sys a1 a2 c).node (376, i) m = .obj (beh c (.bink .max 0) 376 i m) := by rw [sys_eq]; rfl
theorem o376_0 (a1 : ℚ) (a2 : ℚ) (c : Ctx) : (sys a1 a2 c).out 376 0 = [(383, 0)] := by rw [sys_eq]; rfl
theorem n377 (a1 : ℚ) (a2 : ℚ) (c : Ctx) (i : Nat) (m : Msg) : (sys a1 a2 c).node (377, i) m = .fwd false (castTo .bang [(378, 0)] m ++ (castTo .float [(376, 0)] m ++ ([]))) := by rw [sys_eq, seq_T (cs := [some .float, some .bang]) (outs := [[(376, 0)], [(378, 0)]]) rfl]; rcases m with _ | ⟨_ | _ | _, _⟩ <;> rfl
theorem n378_0 (a1 : ℚ) (a2 : ℚ) (c : Ctx) (m : Msg) : (sys a1 a2 c).node (378, 0) m = .fwd false [((381, 0), m)] := by rw [sys_eq]; rfl
theorem n378_1 (a1 : ℚ) (a2 : ℚ) (c : Ctx) (m : Msg) : (sys a1 a2 c).node (378, 1) m = .fwd false [((381, 1), m)] := by rw [sys_eq]; rfl
theorem n380 (a1 : ℚ) (a2 : ℚ) (c : Ctx) (i : Nat) (m : Msg) : (sys a1 a2 c).node (380, i) m = .fwd false [((384, 0), m)] := by rw [sys_eq]; rfl
theorem n381 (a1 : ℚ) (a2 : ℚ) (c : Ctx) (i : Nat) (m : Msg) : (sys a1 a2 c).node (381, i) m = .obj (beh c (.var (.sym "1-pitches")) 381 i m) := by rw [sys_eq]; rfl
theorem o381_0 (a1 : ℚ) (a2 : ℚ) (c : Ctx) : (sys a1 a2 c).out 381 0 = [(380, 0)] := by rw [sys_eq]; rfl
theorem n383 (a1 : ℚ) (a2 : ℚ) (c : Ctx) (i : Nat) (m : Msg) : (sys a1 a2 c).node (383, i) m = .obj (beh c (.bin .min 0) 383 i m) := by rw [sys_eq]; rfl
theorem o383_0 (a1 : ℚ) (a2 : ℚ) (c : Ctx) : (sys a1 a2 c).out 383 0 = [(367, 0)] := by rw [sys_eq]; rfl
theorem n384 (a1 : ℚ) (a2 : ℚ) (c : Ctx) (i : Nat) (m : Msg) : (sys a1 a2 c).node (384, i) m = .obj (beh c (.msg [.lit (.sym "table"), .arg 0, .lit (.sym "length")]) 384 i m) := by rw [sys_eq]; rfl
theorem o384_0 (a1 : ℚ) (a2 : ℚ) (c : Ctx) : (sys a1 a2 c).out 384 0 = [(375, 0)] := by rw [sys_eq]; rfl
theorem n385 (a1 : ℚ) (a2 : ℚ) (c : Ctx) (i : Nat) (m : Msg) : (sys a1 a2 c).node (385, i) m = .obj (beh c (.bink .sub 1) 385 i m) := by rw [sys_eq]; rfl
theorem o385_0 (a1 : ℚ) (a2 : ℚ) (c : Ctx) : (sys a1 a2 c).out 385 0 = [(383, 1)] := by rw [sys_eq]; rfl
theorem n386 (a1 : ℚ) (a2 : ℚ) (c : Ctx) (i : Nat) (m : Msg) : (sys a1 a2 c).node (386, i) m = .fwd false (castTo .bang [(363, 0)] m ++ (castTo .float [(364, 0)] m ++ (castTo .float [(360, 0)] m ++ (castTo .float [(387, 0)] m ++ (castTo .bang [(389, 0)] m ++ ([])))))) := by rw [sys_eq, seq_T (cs := [some .bang, some .float, some .float, some .float, some .bang]) (outs := [[(389, 0)], [(387, 0)], [(360, 0)], [(364, 0)], [(363, 0)]]) rfl]; rcases m with _ | ⟨_ | _ | _, _⟩ <;> rfl
theorem n387 (a1 : ℚ) (a2 : ℚ) (c : Ctx) (i : Nat) (m : Msg) : (sys a1 a2 c).node (387, i) m = .fwd false (castTo .float [(316, 1)] m ++ (castTo .bang [(388, 0)] m ++ ([]))) := by rw [sys_eq, seq_T (cs := [some .bang, some .float]) (outs := [[(388, 0)], [(316, 1)]]) rfl]; rcases m with _ | ⟨_ | _ | _, _⟩ <;> rfl
theorem n388 (a1 : ℚ) (a2 : ℚ) (c : Ctx) (i : Nat) (m : Msg) : (sys a1 a2 c).node (388, i) m = .obj (beh c (.msg [.lit (.float 0)]) 388 i m) := by rw [sys_eq]; rfl
theorem o388_0 (a1 : ℚ) (a2 : ℚ) (c : Ctx) : (sys a1 a2 c).out 388 0 = [(316, 0)] := by rw [sys_eq]; rfl
theorem n389 (a1 : ℚ) (a2 : ℚ) (c : Ctx) (i : Nat) (m : Msg) : (sys a1 a2 c).node (389, i) m = .fwd true [((13, 0), m)] := by rw [sys_eq]; rfl
theorem n390_0 (a1 : ℚ) (a2 : ℚ) (c : Ctx) (m : Msg) : (sys a1 a2 c).node (390, 0) m = .fwd false [((459, 0), m)] := by rw [sys_eq]; rfl
theorem n392_0 (a1 : ℚ) (a2 : ℚ) (c : Ctx) (m : Msg) : (sys a1 a2 c).node (392, 0) m = .fwd false [((418, 0), m)] := by rw [sys_eq]; rfl
theorem n394 (a1 : ℚ) (a2 : ℚ) (c : Ctx) (i : Nat) (m : Msg) : (sys a1 a2 c).node (394, i) m = .fwd false (castTo .float [(400, 0)] m ++ (castTo .float [(395, 0)] m ++ ([]))) := by rw [sys_eq, seq_T (cs := [some .float, some .float]) (outs := [[(395, 0)], [(400, 0)]]) rfl]; rcases m with _ | ⟨_ | _ | _, _⟩ <;> rfl
theorem n395_0 (a1 : ℚ) (a2 : ℚ) (c : Ctx) (m : Msg) : (sys a1 a2 c).node (395, 0) m = .fwd false [((399, 0), m)] := by rw [sys_eq]; rfl
theorem n395_1 (a1 : ℚ) (a2 : ℚ) (c : Ctx) (m : Msg) : (sys a1 a2 c).node (395, 1) m = .fwd false [((399, 1), m)] := by rw [sys_eq]; rfl
theorem n398 (a1 : ℚ) (a2 : ℚ) (c : Ctx) (i : Nat) (m : Msg) : (sys a1 a2 c).node (398, i) m = .fwd false [((432, 0), m)] := by rw [sys_eq]; rfl
theorem n399 (a1 : ℚ) (a2 : ℚ) (c : Ctx) (i : Nat) (m : Msg) : (sys a1 a2 c).node (399, i) m = .obj (beh c (.ite 0) 399 i m) := by rw [sys_eq]; rfl
theorem o399_0 (a1 : ℚ) (a2 : ℚ) (c : Ctx) : (sys a1 a2 c).out 399 0 = [] := by rw [sys_eq]; rfl
theorem o399_1 (a1 : ℚ) (a2 : ℚ) (c : Ctx) : (sys a1 a2 c).out 399 1 = [(398, 0)] := by rw [sys_eq]; rfl
theorem n400 (a1 : ℚ) (a2 : ℚ) (c : Ctx) (i : Nat) (m : Msg) : (sys a1 a2 c).node (400, i) m = .obj (beh c (.bin .lt 0) 400 i m) := by rw [sys_eq]; rfl
theorem o400_0 (a1 : ℚ) (a2 : ℚ) (c : Ctx) : (sys a1 a2 c).out 400 0 = [(395, 1)] := by rw [sys_eq]; rfl
theorem n401 (a1 : ℚ) (a2 : ℚ) (c : Ctx) (i : Nat) (m : Msg) : (sys a1 a2 c).node (401, i) m = .fwd false (castTo .float [(400, 1)] m ++ (castTo .float [(408, 0)] m ++ ([]))) := by rw [sys_eq, seq_T (cs := [some .float, some .float]) (outs := [[(408, 0)], [(400, 1)]]) rfl]; rcases m with _ | ⟨_ | _ | _, _⟩ <;> rfl
theorem n402_0 (a1 : ℚ) (a2 : ℚ) (c : Ctx) (m : Msg) : (sys a1 a2 c).node (402, 0) m = .fwd false [((403, 0), m)] := by rw [sys_eq]; rfl
theorem n402_1 (a1 : ℚ) (a2 : ℚ) (c : Ctx) (m : Msg) : (sys a1 a2 c).node (402, 1) m = .fwd false [((403, 1), m)] := by rw [sys_eq]; rfl
theorem n403 (a1 : ℚ) (a2 : ℚ) (c : Ctx) (i : Nat) (m : Msg) : (sys a1 a2 c).node (403, i) m = .obj (beh c (.var (.float 0)) 403 i m) := by rw [sys_eq]; rfl
theorem o403_0 (a1 : ℚ) (a2 : ℚ) (c : Ctx) : (sys a1 a2 c).out 403 0 = [(404, 0)] := by rw [sys_eq]; rfl
theorem n404 (a1 : ℚ) (a2 : ℚ) (c : Ctx) (i : Nat) (m : Msg) : (sys a1 a2 c).node (404, i) m = .fwd false [((394, 0), m)] := by rw [sys_eq]; rfl
theorem n407 (a1 : ℚ) (a2 : ℚ) (c : Ctx) (i : Nat) (m : Msg) : (sys a1 a2 c).node (407, i) m = .obj (beh c (.bink .add 1) 407 i m) := by rw [sys_eq]; rfl
theorem o407_0 (a1 : ℚ) (a2 : ℚ) (c : Ctx) : (sys a1 a2 c).out 407 0 = [(402, 0)] := by rw [sys_eq]; rfl
theorem n408 (a1 : ℚ) (a2 : ℚ) (c : Ctx) (i : Nat) (m : Msg) : (sys a1 a2 c).node (408, i) m = .obj (beh c (.msg [.lit (.float 0)]) 408 i m) := by rw [sys_eq]; rfl
theorem o408_0 (a1 : ℚ) (a2 : ℚ) (c : Ctx) : (sys a1 a2 c).out 408 0 = [(402, 0)] := by rw [sys_eq]; rfl
theorem n409 (a1 : ℚ) (a2 : ℚ) (c : Ctx) (i : Nat) (m : Msg) : (sys a1 a2 c).node (409, i) m = .fwd false [((463, 0), m)] := by rw [sys_eq]; rfl
theorem n410_0 (a1 : ℚ) (a2 : ℚ) (c : Ctx) (m : Msg) : (sys a1 a2 c).node (410, 0) m = .fwd false [((416, 0), m)] := by rw [sys_eq]; rfl
theorem n410_1 (a1 : ℚ) (a2 : ℚ) (c : Ctx) (m : Msg) : (sys a1 a2 c).node (410, 1) m = .fwd false [((415, 1), m)] := by rw [sys_eq]; rfl
theorem n413 (a1 : ℚ) (a2 : ℚ) (c : Ctx) (i : Nat) (m : Msg) : (sys a1 a2 c).node (413, i) m = .fwd false [] := by rw [sys_eq]; rfl
theorem n414 (a1 : ℚ) (a2 : ℚ) (c : Ctx) (i : Nat) (m : Msg) : (sys a1 a2 c).node (414, i) m = .fwd false [((401, 0), m)] := by rw [sys_eq]; rfl
theorem n415 (a1 : ℚ) (a2 : ℚ) (c : Ctx) (i : Nat) (m : Msg) : (sys a1 a2 c).node (415, i) m = .obj (beh c (.bin .ge 1) 415 i m) := by rw [sys_eq]; rfl
theorem o415_0 (a1 : ℚ) (a2 : ℚ) (c : Ctx) : (sys a1 a2 c).out 415 0 = [(417, 1)] := by rw [sys_eq]; rfl
theorem n416 (a1 : ℚ) (a2 : ℚ) (c : Ctx) (i : Nat) (m : Msg) : (sys a1 a2 c).node (416, i) m = .fwd false ([((415, 0), m)] ++ ([((417, 0), m)] ++ ([]))) := by rw [sys_eq, seq_T (cs := [none, none]) (outs := [[(417, 0)], [(415, 0)]]) rfl]; rfl
theorem n417 (a1 : ℚ) (a2 : ℚ) (c : Ctx) (i : Nat) (m : Msg) : (sys a1 a2 c).node (417, i) m = .obj (beh c (.ite 0) 417 i m) := by rw [sys_eq]; rfl
theorem o417_0 (a1 : ℚ) (a2 : ℚ) (c : Ctx) : (sys a1 a2 c).out 417 0 = [(413, 0)] := by rw [sys_eq]; rfl
theorem o417_1 (a1 : ℚ) (a2 : ℚ) (c : Ctx) : (sys a1 a2 c).out 417 1 = [(414, 0)] := by rw [sys_eq]; rfl
theorem n418_0 (a1 : ℚ) (a2 : ℚ) (c : Ctx) (m : Msg) : (sys a1 a2 c).node (418, 0) m = .fwd false [((420, 0), m)] := by rw [sys_eq]; rfl
theorem n418_1 (a1 : ℚ) (a2 : ℚ) (c : Ctx) (m : Msg) : (sys a1 a2 c).node (418, 1) m = .fwd false [((420, 1), m)] := by rw [sys_eq]; rfl
theorem n420_0 (a1 : ℚ) (a2 : ℚ) (c : Ctx) (m : Msg) : (sys a1 a2 c).node (420, 0) m = .fwd false [((421, 0), m)] := by rw [sys_eq]; rfl
theorem n420_1 (a1 : ℚ) (a2 : ℚ) (c : Ctx) (m : Msg) : (sys a1 a2 c).node (420, 1) m = .fwd false [((421, 1), m)] := by rw [sys_eq]; rfl
theorem n421 (a1 : ℚ) (a2 : ℚ) (c : Ctx) (i : Nat) (m : Msg) : (sys a1 a2 c).node (421, i) m = .obj (beh c (.var (.float 0)) 421 i m) := by rw [sys_eq]; rfl
theorem o421_0 (a1 : ℚ) (a2 : ℚ) (c : Ctx) : (sys a1 a2 c).out 421 0 = [(422, 0)] := by rw [sys_eq]; rfl
theorem n422 (a1 : ℚ) (a2 : ℚ) (c : Ctx) (i : Nat) (m : Msg) : (sys a1 a2 c).node (422, i) m = .fwd false [((431, 0), m)] := by rw [sys_eq]; rfl
theorem n426 (a1 : ℚ) (a2 : ℚ) (c : Ctx) (i : Nat) (m : Msg) : (sys a1 a2 c).node (426, i) m = .fwd false [((410, 0), m)] := by rw [sys_eq]; rfl
theorem n427 (a1 : ℚ) (a2 : ℚ) (c : Ctx) (i : Nat) (m : Msg) : (sys a1 a2 c).node (427, i) m = .obj (beh c (.ite 0) 427 i m) := by rw [sys_eq]; rfl
theorem o427_0 (a1 : ℚ) (a2 : ℚ) (c : Ctx) : (sys a1 a2 c).out 427 0 = [(430, 0)] := by rw [sys_eq]; rfl
theorem o427_1 (a1 : ℚ) (a2 : ℚ) (c : Ctx) : (sys a1 a2 c).out 427 1 = [(429, 0)] := by rw [sys_eq]; rfl
theorem n428 (a1 : ℚ) (a2 : ℚ) (c : Ctx) (i : Nat) (m : Msg) : (sys a1 a2 c).node (428, i) m = .obj (beh c (.bink .gt 0) 428 i m) := by rw [sys_eq]; rfl
theorem o428_0 (a1 : ℚ) (a2 : ℚ) (c : Ctx) : (sys a1 a2 c).out 428 0 = [(427, 1)] := by rw [sys_eq]; rfl
theorem n429 (a1 : ℚ) (a2 : ℚ) (c : Ctx) (i : Nat) (m : Msg) : (sys a1 a2 c).node (429, i) m = .obj (beh c (.un .floor) 429 i m) := by rw [sys_eq]; rfl
theorem o429_0 (a1 : ℚ) (a2 : ℚ) (c : Ctx) : (sys a1 a2 c).out 429 0 = [(426, 0)] := by rw [sys_eq]; rfl
theorem n430 (a1 : ℚ) (a2 : ℚ) (c : Ctx) (i : Nat) (m : Msg) : (sys a1 a2 c).node (430, i) m = .obj (beh c (.un .ceil) 430 i m) := by rw [sys_eq]; rfl
theorem o430_0 (a1 : ℚ) (a2 : ℚ) (c : Ctx) : (sys a1 a2 c).out 430 0 = [(426, 0)] := by rw [sys_eq]; rfl
theorem n431 (a1 : ℚ) (a2 : ℚ) (c : Ctx) (i : Nat) (m : Msg) : (sys a1 a2 c).node (431, i) m = .fwd false ([((428, 0), m)] ++ ([((427, 0), m)] ++ ([]))) := by rw [sys_eq, seq_T (cs := [none, none]) (outs := [[(427, 0)], [(428, 0)]]) rfl]; rfl
theorem n432 (a1 : ℚ) (a2 : ℚ) (c : Ctx) (i : Nat) (m : Msg) : (sys a1 a2 c).node (432, i) m = .fwd false (castTo .float [(409, 0)] m ++ (castTo .float [(407, 0)] m ++ ([]))) := by rw [sys_eq, seq_T (cs := [some .float, some .float]) (outs := [[(407, 0)], [(409, 0)]]) rfl]; rcases m with _ | ⟨_ | _ | _, _⟩ <;> rfl
theorem n433 (a1 : ℚ) (a2 : ℚ) (c : Ctx) (i : Nat) (m : Msg) : (sys a1 a2 c).node (433, i) m = .obj (beh c (.var (.float a1)) 433 i m) := by rw [sys_eq]; rfl
theorem o433_0 (a1 : ℚ) (a2 : ℚ) (c : Ctx) : (sys a1 a2 c).out 433 0 = [(392, 0)] := by rw [sys_eq]; rfl
theorem n434_0 (a1 : ℚ) (a2 : ℚ) (c : Ctx) (m : Msg) : (sys a1 a2 c).node (434, 0) m = .fwd false [((439, 0), m)] := by rw [sys_eq]; rfl
theorem n434_1 (a1 : ℚ) (a2 : ℚ) (c : Ctx) (m : Msg) : (sys a1 a2 c).node (434, 1) m = .fwd false [((438, 1), m)] := by rw [sys_eq]; rfl
theorem n437 (a1 : ℚ) (a2 : ℚ) (c : Ctx) (i : Nat) (m : Msg) : (sys a1 a2 c).node (437, i) m = .fwd false [] := by rw [sys_eq]; rfl
theorem n438 (a1 : ℚ) (a2 : ℚ) (c : Ctx) (i : Nat) (m : Msg) : (sys a1 a2 c).node (438, i) m = .obj (beh c (.tabwrite 1) 438 i m) := by rw [sys_eq]; rfl
theorem o438_0 (a1 : ℚ) (a2 : ℚ) (c : Ctx) : (sys a1 a2 c).out 438 0 = [(437, 0)] := by rw [sys_eq]; rfl
theorem n439_0 (a1 : ℚ) (a2 : ℚ) (c : Ctx) (m : Msg) : (sys a1 a2 c).node (439, 0) m = .fwd false [((442, 0), m)] := by rw [sys_eq]; rfl
theorem n439_1 (a1 : ℚ) (a2 : ℚ) (c : Ctx) (m : Msg) : (sys a1 a2 c).node (439, 1) m = .fwd false [] := by rw [sys_eq]; rfl
theorem n442 (a1 : ℚ) (a2 : ℚ) (c : Ctx) (i : Nat) (m : Msg) : (sys a1 a2 c).node (442, i) m = .obj (beh c (.switch [(.sym "set")]) 442 i m) := by rw [sys_eq]; rfl
theorem o442_0 (a1 : ℚ) (a2 : ℚ) (c : Ctx) : (sys a1 a2 c).out 442 0 = [(444, 0)] := by rw [sys_eq]; rfl
theorem o442_1 (a1 : ℚ) (a2 : ℚ) (c : Ctx) : (sys a1 a2 c).out 442 1 = [(443, 0)] := by rw [sys_eq]; rfl
theorem n443 (a1 : ℚ) (a2 : ℚ) (c : Ctx) (i : Nat) (m : Msg) : (sys a1 a2 c).node (443, i) m = .fwd false [((438, 0), m)] := by rw [sys_eq]; rfl
theorem n444 (a1 : ℚ) (a2 : ℚ) (c : Ctx) (i : Nat) (m : Msg) : (sys a1 a2 c).node (444, i) m = .obj (beh c (.slice 1 0) 444 i m) := by rw [sys_eq]; rfl
theorem o444_0 (a1 : ℚ) (a2 : ℚ) (c : Ctx) : (sys a1 a2 c).out 444 0 = [(445, 0)] := by rw [sys_eq]; rfl
theorem o444_1 (a1 : ℚ) (a2 : ℚ) (c : Ctx) : (sys a1 a2 c).out 444 1 = [(445, 0)] := by rw [sys_eq]; rfl
theorem n445 (a1 : ℚ) (a2 : ℚ) (c : Ctx) (i : Nat) (m : Msg) : (sys a1 a2 c).node (445, i) m = .fwd false [((438, 2), m)] := by rw [sys_eq]; rfl
theorem n446_0 (a1 : ℚ) (a2 : ℚ) (c : Ctx) (m : Msg) : (sys a1 a2 c).node (446, 0) m = .fwd false [((451, 0), m)] := by rw [sys_eq]; rfl
theorem n446_1 (a1 : ℚ) (a2 : ℚ) (c : Ctx) (m : Msg) : (sys a1 a2 c).node (446, 1) m = .fwd false [((450, 1), m)] := by rw [sys_eq]; rfl
theorem n449 (a1 : ℚ) (a2 : ℚ) (c : Ctx) (i : Nat) (m : Msg) : (sys a1 a2 c).node (449, i) m = .fwd false [] := by rw [sys_eq]; rfl
theorem n450 (a1 : ℚ) (a2 : ℚ) (c : Ctx) (i : Nat) (m : Msg) : (sys a1 a2 c).node (450, i) m = .obj (beh c (.tabwrite 2) 450 i m) := by rw [sys_eq]; rfl
theorem o450_0 (a1 : ℚ) (a2 : ℚ) (c : Ctx) : (sys a1 a2 c).out 450 0 = [(449, 0)] := by rw [sys_eq]; rfl
theorem n451_0 (a1 : ℚ) (a2 : ℚ) (c : Ctx) (m : Msg) : (sys a1 a2 c).node (451, 0) m = .fwd false [((454, 0), m)] := by rw [sys_eq]; rfl
theorem n451_1 (a1 : ℚ) (a2 : ℚ) (c : Ctx) (m : Msg) : (sys a1 a2 c).node (451, 1) m = .fwd false [] := by rw [sys_eq]; rfl
theorem n454 (a1 : ℚ) (a2 : ℚ) (c : Ctx) (i : Nat) (m : Msg) : (sys a1 a2 c).node (454, i) m = .obj (beh c (.switch [(.sym "set")]) 454 i m) := by rw [sys_eq]; rfl
theorem o454_0 (a1 : ℚ) (a2 : ℚ) (c : Ctx) : (sys a1 a2 c).out 454 0 = [(456, 0)] := by rw [sys_eq]; rfl
theorem o454_1 (a1 : ℚ) (a2 : ℚ) (c : Ctx) : (sys a1 a2 c).out 454 1 = [(455, 0)] := by rw [sys_eq]; rfl
theorem n455 (a1 : ℚ) (a2 : ℚ) (c : Ctx) (i : Nat) (m : Msg) : (sys a1 a2 c).node (455, i) m = .fwd false [((450, 0), m)] := by rw [sys_eq]; rfl
theorem n456 (a1 : ℚ) (a2 : ℚ) (c : Ctx) (i : Nat) (m : Msg) : (sys a1 a2 c).node (456, i) m = .obj (beh c (.slice 1 0) 456 i m) := by rw [sys_eq]; rfl
theorem o456_0 (a1 : ℚ) (a2 : ℚ) (c : Ctx) : (sys a1 a2 c).out 456 0 = [(457, 0)] := by rw [sys_eq]; rfl
theorem o456_1 (a1 : ℚ) (a2 : ℚ) (c : Ctx) : (sys a1 a2 c).out 456 1 = [(457, 0)] := by rw [sys_eq]; rfl
theorem n457 (a1 : ℚ) (a2 : ℚ) (c : Ctx) (i : Nat) (m : Msg) : (sys a1 a2 c).node (457, i) m = .fwd false [((450, 2), m)] := by rw [sys_eq]; rfl
theorem n458 (a1 : ℚ) (a2 : ℚ) (c : Ctx) (i : Nat) (m : Msg) : (sys a1 a2 c).node (458, i) m = .obj (beh c (.msg [.lit (.float 0)]) 458 i m) := by rw [sys_eq]; rfl
theorem o458_0 (a1 : ℚ) (a2 : ℚ) (c : Ctx) : (sys a1 a2 c).out 458 0 = [(462, 0)] := by rw [sys_eq]; rfl
theorem n459 (a1 : ℚ) (a2 : ℚ) (c : Ctx) (i : Nat) (m : Msg) : (sys a1 a2 c).node (459, i) m = .fwd false (castTo .bang [(460, 0)] m ++ (castTo .bang [(433, 0)] m ++ ([]))) := by rw [sys_eq, seq_T (cs := [some .bang, some .bang]) (outs := [[(433, 0)], [(460, 0)]]) rfl]; rfl
theorem n460 (a1 : ℚ) (a2 : ℚ) (c : Ctx) (i : Nat) (m : Msg) : (sys a1 a2 c).node (460, i) m = .obj (beh c (.msg [.lit (.float 0)]) 460 i m) := by rw [sys_eq]; rfl
theorem o460_0 (a1 : ℚ) (a2 : ℚ) (c : Ctx) : (sys a1 a2 c).out 460 0 = [(461, 0)] := by rw [sys_eq]; rfl
theorem n461 (a1 : ℚ) (a2 : ℚ) (c : Ctx) (i : Nat) (m : Msg) : (sys a1 a2 c).node (461, i) m = .fwd true [((13, 0), m)] := by rw [sys_eq]; rfl
theorem n462 (a1 : ℚ) (a2 : ℚ) (c : Ctx) (i : Nat) (m : Msg) : (sys a1 a2 c).node (462, i) m = .fwd false ([((464, 0), m)] ++ ([((446, 0), m)] ++ ([((434, 0), m)] ++ ([])))) := by rw [sys_eq, seq_T (cs := [none, none, none]) (outs := [[(434, 0)], [(446, 0)], [(464, 0)]]) rfl]; rfl
theorem n463 (a1 : ℚ) (a2 : ℚ) (c : Ctx) (i : Nat) (m : Msg) : (sys a1 a2 c).node (463, i) m = .fwd false ([((464, 1), m)] ++ ([((446, 1), m)] ++ ([((434, 1), m)] ++ (castTo .bang [(458, 0)] m ++ ([]))))) := by rw [sys_eq, seq_T (cs := [some .bang, none, none, none]) (outs := [[(458, 0)], [(434, 1)], [(446, 1)], [(464, 1)]]) rfl]; rfl
theorem n464_0 (a1 : ℚ) (a2 : ℚ) (c : Ctx) (m : Msg) : (sys a1 a2 c).node (464, 0) m = .fwd false [((469, 0), m)] := by rw [sys_eq]; rfl
theorem n464_1 (a1 : ℚ) (a2 : ℚ) (c : Ctx) (m : Msg) : (sys a1 a2 c).node (464, 1) m = .fwd false [((468, 1), m)] := by rw [sys_eq]; rfl
theorem n467 (a1 : ℚ) (a2 : ℚ) (c : Ctx) (i : Nat) (m : Msg) : (sys a1 a2 c).node (467, i) m = .fwd false [] := by rw [sys_eq]; rfl
theorem n468 (a1 : ℚ) (a2 : ℚ) (c : Ctx) (i : Nat) (m : Msg) : (sys a1 a2 c).node (468, i) m = .obj (beh c (.tabwrite 0) 468 i m) := by rw [sys_eq]; rfl
theorem o468_0 (a1 : ℚ) (a2 : ℚ) (c : Ctx) : (sys a1 a2 c).out 468 0 = [(467, 0)] := by rw [sys_eq]; rfl
theorem n469_0 (a1 : ℚ) (a2 : ℚ) (c : Ctx) (m : Msg) : (sys a1 a2 c).node (469, 0) m = .fwd false [((472, 0), m)] := by rw [sys_eq]; rfl
theorem n469_1 (a1 : ℚ) (a2 : ℚ) (c : Ctx) (m : Msg) : (sys a1 a2 c).node (469, 1) m = .fwd false [] := by rw [sys_eq]; rfl
theorem n472 (a1 : ℚ) (a2 : ℚ) (c : Ctx) (i : Nat) (m : Msg) : (sys a1 a2 c).node (472, i) m = .obj (beh c (.switch [(.sym "set")]) 472 i m) := by rw [sys_eq]; rfl
theorem o472_0 (a1 : ℚ) (a2 : ℚ) (c : Ctx) : (sys a1 a2 c).out 472 0 = [(474, 0)] := by rw [sys_eq]; rfl
theorem o472_1 (a1 : ℚ) (a2 : ℚ) (c : Ctx) : (sys a1 a2 c).out 472 1 = [(473, 0)] := by rw [sys_eq]; rfl
theorem n473 (a1 : ℚ) (a2 : ℚ) (c : Ctx) (i : Nat) (m : Msg) : (sys a1 a2 c).node (473, i) m = .fwd false [((468, 0), m)] := by rw [sys_eq]; rfl
theorem n474 (a1 : ℚ) (a2 : ℚ) (c : Ctx) (i : Nat) (m : Msg) : (sys a1 a2 c).node (474, i) m = .obj (beh c (.slice 1 0) 474 i m) := by rw [sys_eq]; rfl
theorem o474_0 (a1 : ℚ) (a2 : ℚ) (c : Ctx) : (sys a1 a2 c).out 474 0 = [(475, 0)] := by rw [sys_eq]; rfl
theorem o474_1 (a1 : ℚ) (a2 : ℚ) (c : Ctx) : (sys a1 a2 c).out 474 1 = [(475, 0)] := by rw [sys_eq]; rfl
theorem n475 (a1 : ℚ) (a2 : ℚ) (c : Ctx) (i : Nat) (m : Msg) : (sys a1 a2 c).node (475, i) m = .fwd false [((468, 2), m)] := by rw [sys_eq]; rfl
theorem n476_0 (a1 : ℚ) (a2 : ℚ) (c : Ctx) (m : Msg) : (sys a1 a2 c).node (476, 0) m = .fwd false [((553, 0), m)] := by rw [sys_eq]; rfl
theorem n476_1 (a1 : ℚ) (a2 : ℚ) (c : Ctx) (m : Msg) : (sys a1 a2 c).node (476, 1) m = .fwd false [((598, 1), m)] := by rw [sys_eq]; rfl
theorem n477_0 (a1 : ℚ) (a2 : ℚ) (c : Ctx) (m : Msg) : (sys a1 a2 c).node (477, 0) m = .fwd false [((503, 0), m)] := by rw [sys_eq]; rfl
theorem n479 (a1 : ℚ) (a2 : ℚ) (c : Ctx) (i : Nat) (m : Msg) : (sys a1 a2 c).node (479, i) m = .fwd false (castTo .float [(485, 0)] m ++ (castTo .float [(480, 0)] m ++ ([]))) := by rw [sys_eq, seq_T (cs := [some .float, some .float]) (outs := [[(480, 0)], [(485, 0)]]) rfl]; rcases m with _ | ⟨_ | _ | _, _⟩ <;> rfl
theorem n480_0 (a1 : ℚ) (a2 : ℚ) (c : Ctx) (m : Msg) : (sys a1 a2 c).node (480, 0) m = .fwd false [((484, 0), m)] := by rw [sys_eq]; rfl
theorem n480_1 (a1 : ℚ) (a2 : ℚ) (c : Ctx) (m : Msg) : (sys a1 a2 c).node (480, 1) m = .fwd false [((484, 1), m)] := by rw [sys_eq]; rfl
theorem n483 (a1 : ℚ) (a2 : ℚ) (c : Ctx) (i : Nat) (m : Msg) : (sys a1 a2 c).node (483, i) m = .fwd false [((517, 0), m)] := by rw [sys_eq]; rfl
theorem n484 (a1 : ℚ) (a2 : ℚ) (c : Ctx) (i : Nat) (m : Msg) : (sys a1 a2 c).node (484, i) m = .obj (beh c (.ite 0) 484 i m) := by rw [sys_eq]; rfl
theorem o484_0 (a1 : ℚ) (a2 : ℚ) (c : Ctx) : (sys a1 a2 c).out 484 0 = [] := by rw [sys_eq]; rfl
theorem o484_1 (a1 : ℚ) (a2 : ℚ) (c : Ctx) : (sys a1 a2 c).out 484 1 = [(483, 0)] := by rw [sys_eq]; rfl
theorem n485 (a1 : ℚ) (a2 : ℚ) (c : Ctx) (i : Nat) (m : Msg) : (sys a1 a2 c).node (485, i) m = .obj (beh c (.bin .lt 0) 485 i m) := by rw [sys_eq]; rfl
theorem o485_0 (a1 : ℚ) (a2 : ℚ) (c : Ctx) : (sys a1 a2 c).out 485 0 = [(480, 1)] := by rw [sys_eq]; rfl
theorem n486 (a1 : ℚ) (a2 : ℚ) (c : Ctx) (i : Nat) (m : Msg) : (sys a1 a2 c).node (486, i) m = .fwd false (castTo .float [(485, 1)] m ++ (castTo .float [(493, 0)] m ++ ([]))) := by rw [sys_eq, seq_T (cs := [some .float, some .float]) (outs := [[(493, 0)], [(485, 1)]]) rfl]; rcases m with _ | ⟨_ | _ | _, _⟩ <;> rfl
theorem n487_0 (a1 : ℚ) (a2 : ℚ) (c : Ctx) (m : Msg) : (sys a1 a2 c).node (487, 0) m = .fwd false [((488, 0), m)] := by rw [sys_eq]; rfl
theorem n487_1 (a1 : ℚ) (a2 : ℚ) (c : Ctx) (m : Msg) : (sys a1 a2 c).node (487, 1) m = .fwd false [((488, 1), m)] := by rw [sys_eq]; rfl
theorem n488 (a1 : ℚ) (a2 : ℚ) (c : Ctx) (i : Nat) (m : Msg) : (sys a1 a2 c).node (488, i) m = .obj (beh c (.var (.float 0)) 488 i m) := by rw [sys_eq]; rfl
theorem o488_0 (a1 : ℚ) (a2 : ℚ) (c : Ctx) : (sys a1 a2 c).out 488 0 = [(489, 0)] := by rw [sys_eq]; rfl
theorem n489 (a1 : ℚ) (a2 : ℚ) (c : Ctx) (i : Nat) (m : Msg) : (sys a1 a2 c).node (489, i) m = .fwd false [((479, 0), m)] := by rw [sys_eq]; rfl
theorem n492 (a1 : ℚ) (a2 : ℚ) (c : Ctx) (i : Nat) (m : Msg) : (sys a1 a2 c).node (492, i) m = .obj (beh c (.bink .add 1) 492 i m) := by rw [sys_eq]; rfl
theorem o492_0 (a1 : ℚ) (a2 : ℚ) (c : Ctx) : (sys a1 a2 c).out 492 0 = [(487, 0)] := by rw [sys_eq]; rfl
theorem n493 (a1 : ℚ) (a2 : ℚ) (c : Ctx) (i : Nat) (m : Msg) : (sys a1 a2 c).node (493, i) m = .obj (beh c (.msg [.lit (.float 0)]) 493 i m) := by rw [sys_eq]; rfl
theorem o493_0 (a1 : ℚ) (a2 : ℚ) (c : Ctx) : (sys a1 a2 c).out 493 0 = [(487, 0)] := by rw [sys_eq]; rfl
theorem n494 (a1 : ℚ) (a2 : ℚ) (c : Ctx) (i : Nat) (m : Msg) : (sys a1 a2 c).node (494, i) m = .fwd false [((533, 0), m)] := by rw [sys_eq]; rfl
theorem n495_0 (a1 : ℚ) (a2 : ℚ) (c : Ctx) (m : Msg) : (sys a1 a2 c).node (495, 0) m = .fwd false [((501, 0), m)] := by rw [sys_eq]; rfl
theorem n495_1 (a1 : ℚ) (a2 : ℚ) (c : Ctx) (m : Msg) : (sys a1 a2 c).node (495, 1) m = .fwd false [((500, 1), m)] := by rw [sys_eq]; rfl
theorem n498 (a1 : ℚ) (a2 : ℚ) (c : Ctx) (i : Nat) (m : Msg) : (sys a1 a2 c).node (498, i) m = .fwd false [] := by rw [sys_eq]; rfl
theorem n499 (a1 : ℚ) (a2 : ℚ) (c : Ctx) (i : Nat) (m : Msg) : (sys a1 a2 c).node (499, i) m = .fwd false [((486, 0), m)] := by rw [sys_eq]; rfl
theorem n500 (a1 : ℚ) (a2 : ℚ) (c : Ctx) (i : Nat) (m : Msg) : (sys a1 a2 c).node (500, i) m = .obj (beh c (.bin .ge 1) 500 i m) := by rw [sys_eq]; rfl
theorem o500_0 (a1 : ℚ) (a2 : ℚ) (c : Ctx) : (sys a1 a2 c).out 500 0 = [(502, 1)] := by rw [sys_eq]; rfl
theorem n501 (a1 : ℚ) (a2 : ℚ) (c : Ctx) (i : Nat) (m : Msg) : (sys a1 a2 c).node (501, i) m = .fwd false ([((500, 0), m)] ++ ([((502, 0), m)] ++ ([]))) := by rw [sys_eq, seq_T (cs := [none, none]) (outs := [[(502, 0)], [(500, 0)]]) rfl]; rfl
theorem n502 (a1 : ℚ) (a2 : ℚ) (c : Ctx) (i : Nat) (m : Msg) : (sys a1 a2 c).node (502, i) m = .obj (beh c (.ite 0) 502 i m) := by rw [sys_eq]; rfl
theorem o502_0 (a1 : ℚ) (a2 : ℚ) (c : Ctx) : (sys a1 a2 c).out 502 0 = [(498, 0)] := by rw [sys_eq]; rfl
theorem o502_1 (a1 : ℚ) (a2 : ℚ) (c : Ctx) : (sys a1 a2 c).out 502 1 = [(499, 0)] := by rw [sys_eq]; rfl
theorem n503_0 (a1 : ℚ) (a2 : ℚ) (c : Ctx) (m : Msg) : (sys a1 a2 c).node (503, 0) m = .fwd false [((505, 0), m)] := by rw [sys_eq]; rfl
theorem n503_1 (a1 : ℚ) (a2 : ℚ) (c : Ctx) (m : Msg) : (sys a1 a2 c).node (503, 1) m = .fwd false [((505, 1), m)] := by rw [sys_eq]; rfl
theorem n505_0 (a1 : ℚ) (a2 : ℚ) (c : Ctx) (m : Msg) : (sys a1 a2 c).node (505, 0) m = .fwd false [((506, 0), m)] := by rw [sys_eq]; rfl
theorem n505_1 (a1 : ℚ) (a2 : ℚ) (c : Ctx) (m : Msg) : (sys a1 a2 c).node (505, 1) m = .fwd false [((506, 1), m)] := by rw [sys_eq]; rfl
theorem n506 (a1 : ℚ) (a2 : ℚ) (c : Ctx) (i : Nat) (m : Msg) : (sys a1 a2 c).node (506, i) m = .obj (beh c (.var (.float 0)) 506 i m) := by rw [sys_eq]; rfl
theorem o506_0 (a1 : ℚ) (a2 : ℚ) (c : Ctx) : (sys a1 a2 c).out 506 0 = [(507, 0)] := by rw [sys_eq]; rfl
theorem n507 (a1 : ℚ) (a2 : ℚ) (c : Ctx) (i : Nat) (m : Msg) : (sys a1 a2 c).node (507, i) m = .fwd false [((516, 0), m)] := by rw [sys_eq]; rfl
theorem n511 (a1 : ℚ) (a2 : ℚ) (c : Ctx) (i : Nat) (m : Msg) : (sys a1 a2 c).node (511, i) m = .fwd false [((495, 0), m)] := by rw [sys_eq]; rfl
theorem n512 (a1 : ℚ) (a2 : ℚ) (c : Ctx) (i : Nat) (m : Msg) : (sys a1 a2 c).node (512, i) m = .obj (beh c (.ite 0) 512 i m) := by rw [sys_eq]; rfl
theorem o512_0 (a1 : ℚ) (a2 : ℚ) (c : Ctx) : (sys a1 a2 c).out 512 0 = [(515, 0)] := by rw [sys_eq]; rfl
theorem o512_1 (a1 : ℚ) (a2 : ℚ) (c : Ctx) : (sys a1 a2 c).out 512 1 = [(514, 0)] := by rw [sys_eq]; rfl
theorem n513 (a1 : ℚ) (a2 : ℚ) (c : Ctx) (i : Nat) (m : Msg) : (sys a1 a2 c).node (513, i) m = .obj (beh c (.bink .gt 0) 513 i m) := by rw [sys_eq]; rfl
theorem o513_0 (a1 : ℚ) (a2 : ℚ) (c : Ctx) : (sys a1 a2 c).out 513 0 = [(512, 1)] := by rw [sys_eq]; rfl
theorem n514 (a1 : ℚ) (a2 : ℚ) (c : Ctx) (i : Nat) (m : Msg) : (sys a1 a2 c).node (514, i) m = .obj (beh c (.un .floor) 514 i m) := by rw [sys_eq]; rfl
theorem o514_0 (a1 : ℚ) (a2 : ℚ) (c : Ctx) : (sys a1 a2 c).out 514 0 = [(511, 0)] := by rw [sys_eq]; rfl
theorem n515 (a1 : ℚ) (a2 : ℚ) (c : Ctx) (i : Nat) (m : Msg) : (sys a1 a2 c).node (515, i) m = .obj (beh c (.un .ceil) 515 i m) := by rw [sys_eq]; rfl
theorem o515_0 (a1 : ℚ) (a2 : ℚ) (c : Ctx) : (sys a1 a2 c).out 515 0 = [(511, 0)] := by rw [sys_eq]; rfl
theorem n516 (a1 : ℚ) (a2 : ℚ) (c : Ctx) (i : Nat) (m : Msg) : (sys a1 a2 c).node (516, i) m = .fwd false ([((513, 0), m)] ++ ([((512, 0), m)] ++ ([]))) := by rw [sys_eq, seq_T (cs := [none, none]) (outs := [[(512, 0)], [(513, 0)]]) rfl]; rfl
theorem n517 (a1 : ℚ) (a2 : ℚ) (c : Ctx) (i : Nat) (m : Msg) : (sys a1 a2 c).node (517, i) m = .fwd false (castTo .float [(494, 0)] m ++ (castTo .float [(492, 0)] m ++ ([]))) := by rw [sys_eq, seq_T (cs := [some .float, some .float]) (outs := [[(492, 0)], [(494, 0)]]) rfl]; rcases m with _ | ⟨_ | _ | _, _⟩ <;> rfl
theorem n518 (a1 : ℚ) (a2 : ℚ) (c : Ctx) (i : Nat) (m : Msg) : (sys a1 a2 c).node (518, i) m = .obj (beh c (.var (.float a1)) 518 i m) := by rw [sys_eq]; rfl
theorem o518_0 (a1 : ℚ) (a2 : ℚ) (c : Ctx) : (sys a1 a2 c).out 518 0 = [(477, 0)] := by rw [sys_eq]; rfl
theorem n519 (a1 : ℚ) (a2 : ℚ) (c : Ctx) (i : Nat) (m : Msg) : (sys a1 a2 c).node (519, i) m = .obj (beh c (.bin .and 0) 519 i m) := by rw [sys_eq]; rfl
theorem o519_0 (a1 : ℚ) (a2 : ℚ) (c : Ctx) : (sys a1 a2 c).out 519 0 = [(543, 0)] := by rw [sys_eq]; rfl
theorem n520 (a1 : ℚ) (a2 : ℚ) (c : Ctx) (i : Nat) (m : Msg) : (sys a1 a2 c).node (520, i) m = .obj (beh c (.bin .lt 0) 520 i m) := by rw [sys_eq]; rfl
theorem o520_0 (a1 : ℚ) (a2 : ℚ) (c : Ctx) : (sys a1 a2 c).out 520 0 = [(541, 1)] := by rw [sys_eq]; rfl
theorem n521_0 (a1 : ℚ) (a2 : ℚ) (c : Ctx) (m : Msg) : (sys a1 a2 c).node (521, 0) m = .fwd false [((524, 0), m)] := by rw [sys_eq]; rfl
theorem n521_1 (a1 : ℚ) (a2 : ℚ) (c : Ctx) (m : Msg) : (sys a1 a2 c).node (521, 1) m = .fwd false [] := by rw [sys_eq]; rfl
theorem n524 (a1 : ℚ) (a2 : ℚ) (c : Ctx) (i : Nat) (m : Msg) : (sys a1 a2 c).node (524, i) m = .obj (beh c (.switch [(.float 1)]) 524 i m) := by rw [sys_eq]; rfl
theorem o524_0 (a1 : ℚ) (a2 : ℚ) (c : Ctx) : (sys a1 a2 c).out 524 0 = [(526, 0)] := by rw [sys_eq]; rfl
theorem o524_1 (a1 : ℚ) (a2 : ℚ) (c : Ctx) : (sys a1 a2 c).out 524 1 = [(525, 0)] := by rw [sys_eq]; rfl
theorem n525 (a1 : ℚ) (a2 : ℚ) (c : Ctx) (i : Nat) (m : Msg) : (sys a1 a2 c).node (525, i) m = .fwd false [] := by rw [sys_eq]; rfl
theorem n526 (a1 : ℚ) (a2 : ℚ) (c : Ctx) (i : Nat) (m : Msg) : (sys a1 a2 c).node (526, i) m = castNode .bang [(527, 0)] m := by rw [sys_eq]; rfl
theorem n527 (a1 : ℚ) (a2 : ℚ) (c : Ctx) (i : Nat) (m : Msg) : (sys a1 a2 c).node (527, i) m = .fwd false [((579, 0), m)] := by rw [sys_eq]; rfl
theorem n528_0 (a1 : ℚ) (a2 : ℚ) (c : Ctx) (m : Msg) : (sys a1 a2 c).node (528, 0) m = .fwd false [((529, 0), m)] := by rw [sys_eq]; rfl
theorem n528_1 (a1 : ℚ) (a2 : ℚ) (c : Ctx) (m : Msg) : (sys a1 a2 c).node (528, 1) m = .fwd false [((529, 1), m)] := by rw [sys_eq]; rfl
theorem n529 (a1 : ℚ) (a2 : ℚ) (c : Ctx) (i : Nat) (m : Msg) : (sys a1 a2 c).node (529, i) m = .obj (beh c (.var (.float 0)) 529 i m) := by rw [sys_eq]; rfl
theorem o529_0 (a1 : ℚ) (a2 : ℚ) (c : Ctx) : (sys a1 a2 c).out 529 0 = [(530, 0)] := by rw [sys_eq]; rfl
theorem n530 (a1 : ℚ) (a2 : ℚ) (c : Ctx) (i : Nat) (m : Msg) : (sys a1 a2 c).node (530, i) m = .fwd false [((534, 0), m)] := by rw [sys_eq]; rfl
theorem n533 (a1 : ℚ) (a2 : ℚ) (c : Ctx) (i : Nat) (m : Msg) : (sys a1 a2 c).node (533, i) m = .fwd false (castTo .float [(528, 1), (545, 1)] m ++ (castTo .float [(669, 0)] m ++ (castTo .float [(647, 0)] m ++ (castTo .float [] m ++ ([]))))) := by rw [sys_eq, seq_T (cs := [some .float, some .float, some .float, some .float]) (outs := [[], [(647, 0)], [(669, 0)], [(528, 1), (545, 1)]]) rfl]; rcases m with _ | ⟨_ | _ | _, _⟩ <;> rfl
theorem n534 (a1 : ℚ) (a2 : ℚ) (c : Ctx) (i : Nat) (m : Msg) : (sys a1 a2 c).node (534, i) m = .fwd true [((620, 0), m)] := by rw [sys_eq]; rfl
theorem n535 (a1 : ℚ) (a2 : ℚ) (c : Ctx) (i : Nat) (m : Msg) : (sys a1 a2 c).node (535, i) m = .fwd false (castTo .float [(519, 0)] m ++ (castTo .float [(542, 0)] m ++ ([]))) := by rw [sys_eq, seq_T (cs := [some .float, some .float]) (outs := [[(542, 0)], [(519, 0)]]) rfl]; rcases m with _ | ⟨_ | _ | _, _⟩ <;> rfl
theorem n536_0 (a1 : ℚ) (a2 : ℚ) (c : Ctx) (m : Msg) : (sys a1 a2 c).node (536, 0) m = .fwd false [((540, 0), m)] := by rw [sys_eq]; rfl
theorem n536_1 (a1 : ℚ) (a2 : ℚ) (c : Ctx) (m : Msg) : (sys a1 a2 c).node (536, 1) m = .fwd false [((540, 1), m)] := by rw [sys_eq]; rfl
theorem n539 (a1 : ℚ) (a2 : ℚ) (c : Ctx) (i : Nat) (m : Msg) : (sys a1 a2 c).node (539, i) m = .fwd false [((554, 0), m)] := by rw [sys_eq]; rfl
theorem n540 (a1 : ℚ) (a2 : ℚ) (c : Ctx) (i : Nat) (m : Msg) : (sys a1 a2 c).node (540, i) m = .obj (beh c (.ite 0) 540 i m) := by rw [sys_eq]; rfl
theorem o540_0 (a1 : ℚ) (a2 : ℚ) (c : Ctx) : (sys a1 a2 c).out 540 0 = [] := by rw [sys_eq]; rfl
theorem o540_1 (a1 : ℚ) (a2 : ℚ) (c : Ctx) : (sys a1 a2 c).out 540 1 = [(539, 0)] := by rw [sys_eq]; rfl
theorem n541 (a1 : ℚ) (a2 : ℚ) (c : Ctx) (i : Nat) (m : Msg) : (sys a1 a2 c).node (541, i) m = .obj (beh c (.bin .and 0) 541 i m) := by rw [sys_eq]; rfl
theorem o541_0 (a1 : ℚ) (a2 : ℚ) (c : Ctx) : (sys a1 a2 c).out 541 0 = [(536, 0)] := by rw [sys_eq]; rfl
theorem n542 (a1 : ℚ) (a2 : ℚ) (c : Ctx) (i : Nat) (m : Msg) : (sys a1 a2 c).node (542, i) m = .obj (beh c (.bink .eq 0) 542 i m) := by rw [sys_eq]; rfl
theorem o542_0 (a1 : ℚ) (a2 : ℚ) (c : Ctx) : (sys a1 a2 c).out 542 0 = [(541, 0)] := by rw [sys_eq]; rfl
theorem n543 (a1 : ℚ) (a2 : ℚ) (c : Ctx) (i : Nat) (m : Msg) : (sys a1 a2 c).node (543, i) m = .fwd false (castTo .float [(521, 0)] m ++ (castTo .float [(544, 0)] m ++ ([]))) := by rw [sys_eq, seq_T (cs := [some .float, some .float]) (outs := [[(544, 0)], [(521, 0)]]) rfl]; rcases m with _ | ⟨_ | _ | _, _⟩ <;> rfl
theorem n544 (a1 : ℚ) (a2 : ℚ) (c : Ctx) (i : Nat) (m : Msg) : (sys a1 a2 c).node (544, i) m = .obj (beh c (.bink .eq 0) 544 i m) := by rw [sys_eq]; rfl
theorem o544_0 (a1 : ℚ) (a2 : ℚ) (c : Ctx) : (sys a1 a2 c).out 544 0 = [(536, 1)] := by rw [sys_eq]; rfl
theorem n545_0 (a1 : ℚ) (a2 : ℚ) (c : Ctx) (m : Msg) : (sys a1 a2 c).node (545, 0) m = .fwd false [((546, 0), m)] := by rw [sys_eq]; rfl
theorem n545_1 (a1 : ℚ) (a2 : ℚ) (c : Ctx) (m : Msg) : (sys a1 a2 c).node (545, 1) m = .fwd false [((546, 1), m)] := by rw [sys_eq]; rfl
theorem n546 (a1 : ℚ) (a2 : ℚ) (c : Ctx) (i : Nat) (m : Msg) : (sys a1 a2 c).node (546, i) m = .obj (beh c (.var (.float 0)) 546 i m) := by rw [sys_eq]; rfl
theorem o546_0 (a1 : ℚ) (a2 : ℚ) (c : Ctx) : (sys a1 a2 c).out 546 0 = [(547, 0)] := by rw [sys_eq]; rfl
theorem n547 (a1 : ℚ) (a2 : ℚ) (c : Ctx) (i : Nat) (m : Msg) : (sys a1 a2 c).node (547, i) m = .fwd false [((550, 0), m)] := by rw [sys_eq]; rfl
theorem n550 (a1 : ℚ) (a2 : ℚ) (c : Ctx) (i : Nat) (m : Msg) : (sys a1 a2 c).node (550, i) m = .fwd true [((621, 0), m)] := by rw [sys_eq]; rfl
theorem n551 (a1 : ℚ) (a2 : ℚ) (c : Ctx) (i : Nat) (m : Msg) : (sys a1 a2 c).node (551, i) m = .fwd true [((620, 0), m)] := by rw [sys_eq]; rfl
theorem n552 (a1 : ℚ) (a2 : ℚ) (c : Ctx) (i : Nat) (m : Msg) : (sys a1 a2 c).node (552, i) m = .fwd true [((621, 0), m)] := by rw [sys_eq]; rfl
theorem n553 (a1 : ℚ) (a2 : ℚ) (c : Ctx) (i : Nat) (m : Msg) : (sys a1 a2 c).node (553, i) m = .fwd false (castTo .bang [(580, 0)] m ++ (castTo .bang [(796, 0)] m ++ (castTo .bang [(518, 0)] m ++ ([((598, 0), m)] ++ ([]))))) := by rw [sys_eq, seq_T (cs := [none, some .bang, some .bang, some .bang]) (outs := [[(598, 0)], [(518, 0)], [(796, 0)], [(580, 0)]]) rfl]; rfl
theorem n554_0 (a1 : ℚ) (a2 : ℚ) (c : Ctx) (m : Msg) : (sys a1 a2 c).node (554, 0) m = .fwd false [((557, 0), m)] := by rw [sys_eq]; rfl
theorem n554_1 (a1 : ℚ) (a2 : ℚ) (c : Ctx) (m : Msg) : (sys a1 a2 c).node (554, 1) m = .fwd false [] := by rw [sys_eq]; rfl
theorem n557 (a1 : ℚ) (a2 : ℚ) (c : Ctx) (i : Nat) (m : Msg) : (sys a1 a2 c).node (557, i) m = .obj (beh c (.switch [(.float 1)]) 557 i m) := by rw [sys_eq]; rfl
theorem o557_0 (a1 : ℚ) (a2 : ℚ) (c : Ctx) : (sys a1 a2 c).out 557 0 = [(559, 0)] := by rw [sys_eq]; rfl
theorem o557_1 (a1 : ℚ) (a2 : ℚ) (c : Ctx) : (sys a1 a2 c).out 557 1 = [(558, 0)] := by rw [sys_eq]; rfl
theorem n558 (a1 : ℚ) (a2 : ℚ) (c : Ctx) (i : Nat) (m : Msg) : (sys a1 a2 c).node (558, i) m = .fwd false [] := by rw [sys_eq]; rfl
theorem n559 (a1 : ℚ) (a2 : ℚ) (c : Ctx) (i : Nat) (m : Msg) : (sys a1 a2 c).node (559, i) m = castNode .bang [(560, 0)] m := by rw [sys_eq]; rfl
theorem n560 (a1 : ℚ) (a2 : ℚ) (c : Ctx) (i : Nat) (m : Msg) : (sys a1 a2 c).node (560, i) m = .fwd false [((575, 0), m)] := by rw [sys_eq]; rfl
theorem n561 (a1 : ℚ) (a2 : ℚ) (c : Ctx) (i : Nat) (m : Msg) : (sys a1 a2 c).node (561, i) m = .obj (beh c (.bin .lt 0) 561 i m) := by rw [sys_eq]; rfl
theorem o561_0 (a1 : ℚ) (a2 : ℚ) (c : Ctx) : (sys a1 a2 c).out 561 0 = [(519, 1)] := by rw [sys_eq]; rfl
theorem n562_0 (a1 : ℚ) (a2 : ℚ) (c : Ctx) (m : Msg) : (sys a1 a2 c).node (562, 0) m = .fwd false [((563, 0), m)] := by rw [sys_eq]; rfl
theorem n562_1 (a1 : ℚ) (a2 : ℚ) (c : Ctx) (m : Msg) : (sys a1 a2 c).node (562, 1) m = .fwd false [((563, 1), m)] := by rw [sys_eq]; rfl
theorem n563 (a1 : ℚ) (a2 : ℚ) (c : Ctx) (i : Nat) (m : Msg) : (sys a1 a2 c).node (563, i) m = .obj (beh c (.var (.float 0)) 563 i m) := by rw [sys_eq]; rfl
theorem o563_0 (a1 : ℚ) (a2 : ℚ) (c : Ctx) : (sys a1 a2 c).out 563 0 = [(564, 0)] := by rw [sys_eq]; rfl
theorem n564 (a1 : ℚ) (a2 : ℚ) (c : Ctx) (i : Nat) (m : Msg) : (sys a1 a2 c).node (564, i) m = .fwd false [((520, 1), m)] := by rw [sys_eq]; rfl
theorem n567 (a1 : ℚ) (a2 : ℚ) (c : Ctx) (i : Nat) (m : Msg) : (sys a1 a2 c).node (567, i) m = .fwd false (castTo .float [(562, 1), (568, 1)] m ++ (castTo .float [(561, 0)] m ++ (castTo .float [(520, 0)] m ++ ([])))) := by rw [sys_eq, seq_T (cs := [some .float, some .float, some .float]) (outs := [[(520, 0)], [(561, 0)], [(562, 1), (568, 1)]]) rfl]; rcases m with _ | ⟨_ | _ | _, _⟩ <;> rfl
theorem n568_0 (a1 : ℚ) (a2 : ℚ) (c : Ctx) (m : Msg) : (sys a1 a2 c).node (568, 0) m = .fwd false [((569, 0), m)] := by rw [sys_eq]; rfl
theorem n568_1 (a1 : ℚ) (a2 : ℚ) (c : Ctx) (m : Msg) : (sys a1 a2 c).node (568, 1) m = .fwd false [((569, 1), m)] := by rw [sys_eq]; rfl
theorem n569 (a1 : ℚ) (a2 : ℚ) (c : Ctx) (i : Nat) (m : Msg) : (sys a1 a2 c).node (569, i) m = .obj (beh c (.var (.float 0)) 569 i m) := by rw [sys_eq]; rfl
theorem o569_0 (a1 : ℚ) (a2 : ℚ) (c : Ctx) : (sys a1 a2 c).out 569 0 = [(570, 0)] := by rw [sys_eq]; rfl
theorem n570 (a1 : ℚ) (a2 : ℚ) (c : Ctx) (i : Nat) (m : Msg) : (sys a1 a2 c).node (570, i) m = .fwd false [((561, 1), m)] := by rw [sys_eq]; rfl
theorem n573 (a1 : ℚ) (a2 : ℚ) (c : Ctx) (i : Nat) (m : Msg) : (sys a1 a2 c).node (573, i) m = .fwd false (castTo .float [(568, 0)] m ++ (castTo .float [(562, 0)] m ++ ([]))) := by rw [sys_eq, seq_T (cs := [some .float, some .float]) (outs := [[(562, 0)], [(568, 0)]]) rfl]; rcases m with _ | ⟨_ | _ | _, _⟩ <;> rfl
theorem n574 (a1 : ℚ) (a2 : ℚ) (c : Ctx) (i : Nat) (m : Msg) : (sys a1 a2 c).node (574, i) m = .fwd true [((589, 0), m)] := by rw [sys_eq]; rfl
theorem n575 (a1 : ℚ) (a2 : ℚ) (c : Ctx) (i : Nat) (m : Msg) : (sys a1 a2 c).node (575, i) m = .fwd false (castTo .bang [(562, 0)] m ++ (castTo .bang [(576, 0)] m ++ (castTo .bang [(545, 0)] m ++ ([])))) := by rw [sys_eq, seq_T (cs := [some .bang, some .bang, some .bang]) (outs := [[(545, 0)], [(576, 0)], [(562, 0)]]) rfl]; rfl
theorem n576 (a1 : ℚ) (a2 : ℚ) (c : Ctx) (i : Nat) (m : Msg) : (sys a1 a2 c).node (576, i) m = .obj (beh c (.msg [.lit (.float 1)]) 576 i m) := by rw [sys_eq]; rfl
theorem o576_0 (a1 : ℚ) (a2 : ℚ) (c : Ctx) : (sys a1 a2 c).out 576 0 = [(574, 0)] := by rw [sys_eq]; rfl
theorem n577 (a1 : ℚ) (a2 : ℚ) (c : Ctx) (i : Nat) (m : Msg) : (sys a1 a2 c).node (577, i) m = .obj (beh c (.msg [.lit (.float 1)]) 577 i m) := by rw [sys_eq]; rfl
theorem o577_0 (a1 : ℚ) (a2 : ℚ) (c : Ctx) : (sys a1 a2 c).out 577 0 = [(578, 0)] := by rw [sys_eq]; rfl
theorem n578 (a1 : ℚ) (a2 : ℚ) (c : Ctx) (i : Nat) (m : Msg) : (sys a1 a2 c).node (578, i) m = .fwd true [((782, 0), m)] := by rw [sys_eq]; rfl
theorem n579 (a1 : ℚ) (a2 : ℚ) (c : Ctx) (i : Nat) (m : Msg) : (sys a1 a2 c).node (579, i) m = .fwd false (castTo .bang [(568, 0)] m ++ (castTo .bang [(577, 0)] m ++ (castTo .bang [(528, 0)] m ++ ([])))) := by rw [sys_eq, seq_T (cs := [some .bang, some .bang, some .bang]) (outs := [[(528, 0)], [(577, 0)], [(568, 0)]]) rfl]; rfl
theorem n580 (a1 : ℚ) (a2 : ℚ) (c : Ctx) (i : Nat) (m : Msg) : (sys a1 a2 c).node (580, i) m = .obj (beh c (.msg [.lit (.float 0)]) 580 i m) := by rw [sys_eq]; rfl
theorem o580_0 (a1 : ℚ) (a2 : ℚ) (c : Ctx) : (sys a1 a2 c).out 580 0 = [(552, 0), (551, 0), (581, 0), (582, 0)] := by rw [sys_eq]; rfl
theorem n581 (a1 : ℚ) (a2 : ℚ) (c : Ctx) (i : Nat) (m : Msg) : (sys a1 a2 c).node (581, i) m = .fwd true [((782, 0), m)] := by rw [sys_eq]; rfl
theorem n582 (a1 : ℚ) (a2 : ℚ) (c : Ctx) (i : Nat) (m : Msg) : (sys a1 a2 c).node (582, i) m = .fwd true [((589, 0), m)] := by rw [sys_eq]; rfl
theorem n584_0 (a1 : ℚ) (a2 : ℚ) (c : Ctx) (m : Msg) : (sys a1 a2 c).node (584, 0) m = .fwd false [((588, 0), m)] := by rw [sys_eq]; rfl
theorem n584_1 (a1 : ℚ) (a2 : ℚ) (c : Ctx) (m : Msg) : (sys a1 a2 c).node (584, 1) m = .fwd false [((588, 1), m)] := by rw [sys_eq]; rfl
theorem n587 (a1 : ℚ) (a2 : ℚ) (c : Ctx) (i : Nat) (m : Msg) : (sys a1 a2 c).node (587, i) m = .fwd false [((638, 0), m)] := by rw [sys_eq]; rfl
theorem n588 (a1 : ℚ) (a2 : ℚ) (c : Ctx) (i : Nat) (m : Msg) : (sys a1 a2 c).node (588, i) m = .obj (beh c (.ite 0) 588 i m) := by rw [sys_eq]; rfl
theorem o588_0 (a1 : ℚ) (a2 : ℚ) (c : Ctx) : (sys a1 a2 c).out 588 0 = [] := by rw [sys_eq]; rfl
theorem o588_1 (a1 : ℚ) (a2 : ℚ) (c : Ctx) : (sys a1 a2 c).out 588 1 = [(587, 0)] := by rw [sys_eq]; rfl
theorem n589 (a1 : ℚ) (a2 : ℚ) (c : Ctx) (i : Nat) (m : Msg) : (sys a1 a2 c).node (589, i) m = .fwd false (castTo .float [(597, 0)] m ++ (castTo .float [(584, 1)] m ++ ([]))) := by rw [sys_eq, seq_T (cs := [some .float, some .float]) (outs := [[(584, 1)], [(597, 0)]]) rfl]; rcases m with _ | ⟨_ | _ | _, _⟩ <;> rfl
theorem n591_0 (a1 : ℚ) (a2 : ℚ) (c : Ctx) (m : Msg) : (sys a1 a2 c).node (591, 0) m = .fwd false [((595, 0), m)] := by rw [sys_eq]; rfl
theorem n591_1 (a1 : ℚ) (a2 : ℚ) (c : Ctx) (m : Msg) : (sys a1 a2 c).node (591, 1) m = .fwd false [((595, 1), m)] := by rw [sys_eq]; rfl
theorem n594 (a1 : ℚ) (a2 : ℚ) (c : Ctx) (i : Nat) (m : Msg) : (sys a1 a2 c).node (594, i) m = .fwd false [((781, 0), m)] := by rw [sys_eq]; rfl
theorem n595 (a1 : ℚ) (a2 : ℚ) (c : Ctx) (i : Nat) (m : Msg) : (sys a1 a2 c).node (595, i) m = .obj (beh c (.ite 0) 595 i m) := by rw [sys_eq]; rfl
theorem o595_0 (a1 : ℚ) (a2 : ℚ) (c : Ctx) : (sys a1 a2 c).out 595 0 = [] := by rw [sys_eq]; rfl
theorem o595_1 (a1 : ℚ) (a2 : ℚ) (c : Ctx) : (sys a1 a2 c).out 595 1 = [(594, 0)] := by rw [sys_eq]; rfl
theorem n596 (a1 : ℚ) (a2 : ℚ) (c : Ctx) (i : Nat) (m : Msg) : (sys a1 a2 c).node (596, i) m = .obj (beh c (.bin .and 0) 596 i m) := by rw [sys_eq]; rfl
theorem o596_0 (a1 : ℚ) (a2 : ℚ) (c : Ctx) : (sys a1 a2 c).out 596 0 = [(625, 0)] := by rw [sys_eq]; rfl
theorem n597 (a1 : ℚ) (a2 : ℚ) (c : Ctx) (i : Nat) (m : Msg) : (sys a1 a2 c).node (597, i) m = .obj (beh c (.bink .eq 0) 597 i m) := by rw [sys_eq]; rfl
theorem o597_0 (a1 : ℚ) (a2 : ℚ) (c : Ctx) : (sys a1 a2 c).out 597 0 = [(811, 0)] := by rw [sys_eq]; rfl
theorem n598 (a1 : ℚ) (a2 : ℚ) (c : Ctx) (i : Nat) (m : Msg) : (sys a1 a2 c).node (598, i) m = .obj (beh c (.pack [0, 0]) 598 i m) := by rw [sys_eq]; rfl
theorem o598_0 (a1 : ℚ) (a2 : ℚ) (c : Ctx) : (sys a1 a2 c).out 598 0 = [(599, 0)] := by rw [sys_eq]; rfl
theorem n599 (a1 : ℚ) (a2 : ℚ) (c : Ctx) (i : Nat) (m : Msg) : (sys a1 a2 c).node (599, i) m = .fwd false ([((591, 0), m)] ++ ([((584, 0), m)] ++ ([]))) := by rw [sys_eq, seq_T (cs := [none, none]) (outs := [[(584, 0)], [(591, 0)]]) rfl]; rfl
theorem n600 (a1 : ℚ) (a2 : ℚ) (c : Ctx) (i : Nat) (m : Msg) : (sys a1 a2 c).node (600, i) m = .fwd false [((4, 0), m)] := by rw [sys_eq]; rfl
theorem n601 (a1 : ℚ) (a2 : ℚ) (c : Ctx) (i : Nat) (m : Msg) : (sys a1 a2 c).node (601, i) m = .fwd false [((5, 0), m)] := by rw [sys_eq]; rfl
theorem n603_0 (a1 : ℚ) (a2 : ℚ) (c : Ctx) (m : Msg) : (sys a1 a2 c).node (603, 0) m = .fwd false [((604, 0), m)] := by rw [sys_eq]; rfl
theorem n603_1 (a1 : ℚ) (a2 : ℚ) (c : Ctx) (m : Msg) : (sys a1 a2 c).node (603, 1) m = .fwd false [((604, 1), m)] := by rw [sys_eq]; rfl
theorem n604 (a1 : ℚ) (a2 : ℚ) (c : Ctx) (i : Nat) (m : Msg) : (sys a1 a2 c).node (604, i) m = .obj (beh c (.var (.float 0)) 604 i m) := by rw [sys_eq]; rfl
theorem o604_0 (a1 : ℚ) (a2 : ℚ) (c : Ctx) : (sys a1 a2 c).out 604 0 = [(605, 0)] := by rw [sys_eq]; rfl
theorem n605 (a1 : ℚ) (a2 : ℚ) (c : Ctx) (i : Nat) (m : Msg) : (sys a1 a2 c).node (605, i) m = .fwd false [((630, 0), m)] := by rw [sys_eq]; rfl
theorem n608_0 (a1 : ℚ) (a2 : ℚ) (c : Ctx) (m : Msg) : (sys a1 a2 c).node (608, 0) m = .fwd false [((610, 0), m), ((612, 0), m)] := by rw [sys_eq]; rfl
theorem n610 (a1 : ℚ) (a2 : ℚ) (c : Ctx) (i : Nat) (m : Msg) : (sys a1 a2 c).node (610, i) m = .obj (beh c (.slice 1 1) 610 i m) := by rw [sys_eq]; rfl
theorem o610_0 (a1 : ℚ) (a2 : ℚ) (c : Ctx) : (sys a1 a2 c).out 610 0 = [(611, 0)] := by rw [sys_eq]; rfl
theorem o610_1 (a1 : ℚ) (a2 : ℚ) (c : Ctx) : (sys a1 a2 c).out 610 1 = [] := by rw [sys_eq]; rfl
theorem n611 (a1 : ℚ) (a2 : ℚ) (c : Ctx) (i : Nat) (m : Msg) : (sys a1 a2 c).node (611, i) m = .fwd false [((601, 0), m)] := by rw [sys_eq]; rfl
theorem n612 (a1 : ℚ) (a2 : ℚ) (c : Ctx) (i : Nat) (m : Msg) : (sys a1 a2 c).node (612, i) m = .obj (beh c (.slice 0 1) 612 i m) := by rw [sys_eq]; rfl
theorem o612_0 (a1 : ℚ) (a2 : ℚ) (c : Ctx) : (sys a1 a2 c).out 612 0 = [(613, 0)] := by rw [sys_eq]; rfl
theorem o612_1 (a1 : ℚ) (a2 : ℚ) (c : Ctx) : (sys a1 a2 c).out 612 1 = [] := by rw [sys_eq]; rfl
theorem n613 (a1 : ℚ) (a2 : ℚ) (c : Ctx) (i : Nat) (m : Msg) : (sys a1 a2 c).node (613, i) m = .fwd false [((808, 0), m)] := by rw [sys_eq]; rfl
theorem n615_0 (a1 : ℚ) (a2 : ℚ) (c : Ctx) (m : Msg) : (sys a1 a2 c).node (615, 0) m = .fwd false [((616, 0), m)] := by rw [sys_eq]; rfl
theorem n615_1 (a1 : ℚ) (a2 : ℚ) (c : Ctx) (m : Msg) : (sys a1 a2 c).node (615, 1) m = .fwd false [((616, 1), m)] := by rw [sys_eq]; rfl
theorem n616 (a1 : ℚ) (a2 : ℚ) (c : Ctx) (i : Nat) (m : Msg) : (sys a1 a2 c).node (616, i) m = .obj (beh c (.var (.float 0)) 616 i m) := by rw [sys_eq]; rfl
theorem o616_0 (a1 : ℚ) (a2 : ℚ) (c : Ctx) : (sys a1 a2 c).out 616 0 = [(617, 0)] := by rw [sys_eq]; rfl
theorem n617 (a1 : ℚ) (a2 : ℚ) (c : Ctx) (i : Nat) (m : Msg) : (sys a1 a2 c).node (617, i) m = .fwd false [((630, 0), m)] := by rw [sys_eq]; rfl
theorem n620 (a1 : ℚ) (a2 : ℚ) (c : Ctx) (i : Nat) (m : Msg) : (sys a1 a2 c).node (620, i) m = .fwd false ([((691, 1), m)] ++ ([((783, 1), m)] ++ ([((761, 1), m)] ++ ([((615, 1), m), ((631, 1), m)] ++ ([]))))) := by rw [sys_eq, seq_T (cs := [none, none, none, none]) (outs := [[(615, 1), (631, 1)], [(761, 1)], [(783, 1)], [(691, 1)]]) rfl]; rfl
theorem n621 (a1 : ℚ) (a2 : ℚ) (c : Ctx) (i : Nat) (m : Msg) : (sys a1 a2 c).node (621, i) m = .fwd false ([((603, 1), m)] ++ ([((749, 1), m)] ++ ([((725, 1), m)] ++ ([((737, 1), m)] ++ ([]))))) := by rw [sys_eq, seq_T (cs := [none, none, none, none]) (outs := [[(737, 1)], [(725, 1)], [(749, 1)], [(603, 1)]]) rfl]; rfl
theorem n622 (a1 : ℚ) (a2 : ℚ) (c : Ctx) (i : Nat) (m : Msg) : (sys a1 a2 c).node (622, i) m = .obj (beh c (.msg [.lit (.float 1)]) 622 i m) := by rw [sys_eq]; rfl
theorem o622_0 (a1 : ℚ) (a2 : ℚ) (c : Ctx) : (sys a1 a2 c).out 622 0 = [(737, 0)] := by rw [sys_eq]; rfl
theorem n623 (a1 : ℚ) (a2 : ℚ) (c : Ctx) (i : Nat) (m : Msg) : (sys a1 a2 c).node (623, i) m = .obj (beh c (.msg [.lit (.float 1)]) 623 i m) := by rw [sys_eq]; rfl
theorem o623_0 (a1 : ℚ) (a2 : ℚ) (c : Ctx) : (sys a1 a2 c).out 623 0 = [(783, 0)] := by rw [sys_eq]; rfl
theorem n625_0 (a1 : ℚ) (a2 : ℚ) (c : Ctx) (m : Msg) : (sys a1 a2 c).node (625, 0) m = .fwd false [((629, 0), m)] := by rw [sys_eq]; rfl
theorem n625_1 (a1 : ℚ) (a2 : ℚ) (c : Ctx) (m : Msg) : (sys a1 a2 c).node (625, 1) m = .fwd false [((629, 1), m)] := by rw [sys_eq]; rfl
theorem n628 (a1 : ℚ) (a2 : ℚ) (c : Ctx) (i : Nat) (m : Msg) : (sys a1 a2 c).node (628, i) m = .fwd false [((591, 1), m)] := by rw [sys_eq]; rfl
theorem n629 (a1 : ℚ) (a2 : ℚ) (c : Ctx) (i : Nat) (m : Msg) : (sys a1 a2 c).node (629, i) m = .obj (beh c (.ite 0) 629 i m) := by rw [sys_eq]; rfl
theorem o629_0 (a1 : ℚ) (a2 : ℚ) (c : Ctx) : (sys a1 a2 c).out 629 0 = [] := by rw [sys_eq]; rfl
theorem o629_1 (a1 : ℚ) (a2 : ℚ) (c : Ctx) : (sys a1 a2 c).out 629 1 = [(628, 0)] := by rw [sys_eq]; rfl
theorem n630 (a1 : ℚ) (a2 : ℚ) (c : Ctx) (i : Nat) (m : Msg) : (sys a1 a2 c).node (630, i) m = .fwd false [((11, 0), m)] := by rw [sys_eq]; rfl
theorem n631_0 (a1 : ℚ) (a2 : ℚ) (c : Ctx) (m : Msg) : (sys a1 a2 c).node (631, 0) m = .fwd false [((632, 0), m)] := by rw [sys_eq]; rfl
theorem n631_1 (a1 : ℚ) (a2 : ℚ) (c : Ctx) (m : Msg) : (sys a1 a2 c).node (631, 1) m = .fwd false [((632, 1), m)] := by rw [sys_eq]; rfl
theorem n632 (a1 : ℚ) (a2 : ℚ) (c : Ctx) (i : Nat) (m : Msg) : (sys a1 a2 c).node (632, i) m = .obj (beh c (.var (.float 0)) 632 i m) := by rw [sys_eq]; rfl
theorem o632_0 (a1 : ℚ) (a2 : ℚ) (c : Ctx) : (sys a1 a2 c).out 632 0 = [(633, 0)] := by rw [sys_eq]; rfl
theorem n633 (a1 : ℚ) (a2 : ℚ) (c : Ctx) (i : Nat) (m : Msg) : (sys a1 a2 c).node (633, i) m = .fwd false [((703, 0), m)] := by rw [sys_eq]; rfl
theorem n636 (a1 : ℚ) (a2 : ℚ) (c : Ctx) (i : Nat) (m : Msg) : (sys a1 a2 c).node (636, i) m = .fwd false (castTo .bang [(637, 0)] m ++ (castTo .bang [(631, 0)] m ++ (castTo .bang [(615, 0)] m ++ ([])))) := by rw [sys_eq, seq_T (cs := [some .bang, some .bang, some .bang]) (outs := [[(615, 0)], [(631, 0)], [(637, 0)]]) rfl]; rfl
theorem n637 (a1 : ℚ) (a2 : ℚ) (c : Ctx) (i : Nat) (m : Msg) : (sys a1 a2 c).node (637, i) m = .obj (beh c (.msg [.lit (.float 0)]) 637 i m) := by rw [sys_eq]; rfl
theorem o637_0 (a1 : ℚ) (a2 : ℚ) (c : Ctx) : (sys a1 a2 c).out 637 0 = [(601, 0)] := by rw [sys_eq]; rfl
theorem n638 (a1 : ℚ) (a2 : ℚ) (c : Ctx) (i : Nat) (m : Msg) : (sys a1 a2 c).node (638, i) m = .fwd false ([((608, 0), m)] ++ (castTo .bang [(603, 0)] m ++ (castTo .bang [(622, 0)] m ++ (castTo .bang [(639, 0)] m ++ ([]))))) := by rw [sys_eq, seq_T (cs := [some .bang, some .bang, some .bang, none]) (outs := [[(639, 0)], [(622, 0)], [(603, 0)], [(608, 0)]]) rfl]; rfl
theorem n639 (a1 : ℚ) (a2 : ℚ) (c : Ctx) (i : Nat) (m : Msg) : (sys a1 a2 c).node (639, i) m = .fwd false (castTo .bang [(641, 0)] m ++ (castTo .bang [(642, 0)] m ++ ([]))) := by rw [sys_eq, seq_T (cs := [some .bang, some .bang]) (outs := [[(642, 0)], [(641, 0)]]) rfl]; rfl
theorem n641 (a1 : ℚ) (a2 : ℚ) (c : Ctx) (i : Nat) (m : Msg) : (sys a1 a2 c).node (641, i) m = .fwd true [((13, 0), m)] := by rw [sys_eq]; rfl
theorem n642_0 (a1 : ℚ) (a2 : ℚ) (c : Ctx) (m : Msg) : (sys a1 a2 c).node (642, 0) m = .fwd false [((643, 0), m)] := by rw [sys_eq]; rfl
theorem n642_1 (a1 : ℚ) (a2 : ℚ) (c : Ctx) (m : Msg) : (sys a1 a2 c).node (642, 1) m = .fwd false [((643, 1), m)] := by rw [sys_eq]; rfl
theorem n643 (a1 : ℚ) (a2 : ℚ) (c : Ctx) (i : Nat) (m : Msg) : (sys a1 a2 c).node (643, i) m = .obj (beh c (.var (.float 0)) 643 i m) := by rw [sys_eq]; rfl
theorem o643_0 (a1 : ℚ) (a2 : ℚ) (c : Ctx) : (sys a1 a2 c).out 643 0 = [(644, 0)] := by rw [sys_eq]; rfl
theorem n644 (a1 : ℚ) (a2 : ℚ) (c : Ctx) (i : Nat) (m : Msg) : (sys a1 a2 c).node (644, i) m = .fwd false [((749, 0), m)] := by rw [sys_eq]; rfl
theorem n647_0 (a1 : ℚ) (a2 : ℚ) (c : Ctx) (m : Msg) : (sys a1 a2 c).node (647, 0) m = .fwd false [((651, 0), m)] := by rw [sys_eq]; rfl
theorem n649 (a1 : ℚ) (a2 : ℚ) (c : Ctx) (i : Nat) (m : Msg) : (sys a1 a2 c).node (649, i) m = .fwd false [((535, 0), m)] := by rw [sys_eq]; rfl
theorem n650 (a1 : ℚ) (a2 : ℚ) (c : Ctx) (i : Nat) (m : Msg) : (sys a1 a2 c).node (650, i) m = .obj (beh c (.tabread 1) 650 i m) := by rw [sys_eq]; rfl
theorem o650_0 (a1 : ℚ) (a2 : ℚ) (c : Ctx) : (sys a1 a2 c).out 650 0 = [(649, 0)] := by rw [sys_eq]; rfl
theorem n651_0 (a1 : ℚ) (a2 : ℚ) (c : Ctx) (m : Msg) : (sys a1 a2 c).node (651, 0) m = .fwd false [((654, 0), m)] := by rw [sys_eq]; rfl
theorem n651_1 (a1 : ℚ) (a2 : ℚ) (c : Ctx) (m : Msg) : (sys a1 a2 c).node (651, 1) m = .fwd false [] := by rw [sys_eq]; rfl
theorem n654 (a1 : ℚ) (a2 : ℚ) (c : Ctx) (i : Nat) (m : Msg) : (sys a1 a2 c).node (654, i) m = .obj (beh c (.switch [(.sym "set")]) 654 i m) := by rw [sys_eq]; rfl
theorem o654_0 (a1 : ℚ) (a2 : ℚ) (c : Ctx) : (sys a1 a2 c).out 654 0 = [(656, 0)] := by rw [sys_eq]; rfl
theorem o654_1 (a1 : ℚ) (a2 : ℚ) (c : Ctx) : (sys a1 a2 c).out 654 1 = [(655, 0)] := by rw [sys_eq]; rfl
theorem n655 (a1 : ℚ) (a2 : ℚ) (c : Ctx) (i : Nat) (m : Msg) : (sys a1 a2 c).node (655, i) m = .fwd false [((660, 0), m)] := by rw [sys_eq]; rfl
theorem n656 (a1 : ℚ) (a2 : ℚ) (c : Ctx) (i : Nat) (m : Msg) : (sys a1 a2 c).node (656, i) m = .obj (beh c (.slice 1 0) 656 i m) := by rw [sys_eq]; rfl
theorem o656_0 (a1 : ℚ) (a2 : ℚ) (c : Ctx) : (sys a1 a2 c).out 656 0 = [(657, 0)] := by rw [sys_eq]; rfl
theorem o656_1 (a1 : ℚ) (a2 : ℚ) (c : Ctx) : (sys a1 a2 c).out 656 1 = [(657, 0)] := by rw [sys_eq]; rfl
theorem n657 (a1 : ℚ) (a2 : ℚ) (c : Ctx) (i : Nat) (m : Msg) : (sys a1 a2 c).node (657, i) m = .fwd false [((650, 1), m)] := by rw [sys_eq]; rfl
theorem n658 (a1 : ℚ) (a2 : ℚ) (c : Ctx) (i : Nat) (m : Msg) : (sys a1 a2 c).node (658, i) m = .obj (beh c (.system) 658 i m) := by rw [sys_eq]; rfl
theorem o658_0 (a1 : ℚ) (a2 : ℚ) (c : Ctx) : (sys a1 a2 c).out 658 0 = [(668, 0)] := by rw [sys_eq]; rfl
theorem n659 (a1 : ℚ) (a2 : ℚ) (c : Ctx) (i : Nat) (m : Msg) : (sys a1 a2 c).node (659, i) m = .obj (beh c (.bink .max 0) 659 i m) := by rw [sys_eq]; rfl
theorem o659_0 (a1 : ℚ) (a2 : ℚ) (c : Ctx) : (sys a1 a2 c).out 659 0 = [(666, 0)] := by rw [sys_eq]; rfl
theorem n660 (a1 : ℚ) (a2 : ℚ) (c : Ctx) (i : Nat) (m : Msg) : (sys a1 a2 c).node (660, i) m = .fwd false (castTo .bang [(661, 0)] m ++ (castTo .float [(659, 0)] m ++ ([]))) := by rw [sys_eq, seq_T (cs := [some .float, some .bang]) (outs := [[(659, 0)], [(661, 0)]]) rfl]; rcases m with _ | ⟨_ | _ | _, _⟩ <;> rfl
theorem n661_0 (a1 : ℚ) (a2 : ℚ) (c : Ctx) (m : Msg) : (sys a1 a2 c).node (661, 0) m = .fwd false [((664, 0), m)] := by rw [sys_eq]; rfl
theorem n661_1 (a1 : ℚ) (a2 : ℚ) (c : Ctx) (m : Msg) : (sys a1 a2 c).node (661, 1) m = .fwd false [((664, 1), m)] := by rw [sys_eq]; rfl
theorem n663 (a1 : ℚ) (a2 : ℚ) (c : Ctx) (i : Nat) (m : Msg) : (sys a1 a2 c).node (663, i) m = .fwd false [((667, 0), m)] := by rw [sys_eq]; rfl
theorem n664 (a1 : ℚ) (a2 : ℚ) (c : Ctx) (i : Nat) (m : Msg) : (sys a1 a2 c).node (664, i) m = .obj (beh c (.var (.sym "1-used")) 664 i m) := by rw [sys_eq]; rfl
theorem o664_0 (a1 : ℚ) (a2 : ℚ) (c : Ctx) : (sys a1 a2 c).out 664 0 = [(663, 0)] := by rw [sys_eq]; rfl
theorem n666 (a1 : ℚ) (a2 : ℚ) (c : Ctx) (i : Nat) (m : Msg) : (sys a1 a2 c).node (666, i) m = .obj (beh c (.bin .min 0) 666 i m) := by rw [sys_eq]; rfl
theorem o666_0 (a1 : ℚ) (a2 : ℚ) (c : Ctx) : (sys a1 a2 c).out 666 0 = [(650, 0)] := by rw [sys_eq]; rfl
theorem n667 (a1 : ℚ) (a2 : ℚ) (c : Ctx) (i : Nat) (m : Msg) : (sys a1 a2 c).node (667, i) m = .obj (beh c (.msg [.lit (.sym "table"), .arg 0, .lit (.sym "length")]) 667 i m) := by rw [sys_eq]; rfl
theorem o667_0 (a1 : ℚ) (a2 : ℚ) (c : Ctx) : (sys a1 a2 c).out 667 0 = [(658, 0)] := by rw [sys_eq]; rfl
theorem n668 (a1 : ℚ) (a2 : ℚ) (c : Ctx) (i : Nat) (m : Msg) : (sys a1 a2 c).node (668, i) m = .obj (beh c (.bink .sub 1) 668 i m) := by rw [sys_eq]; rfl
theorem o668_0 (a1 : ℚ) (a2 : ℚ) (c : Ctx) : (sys a1 a2 c).out 668 0 = [(666, 1)] := by rw [sys_eq]; rfl
theorem n669_0 (a1 : ℚ) (a2 : ℚ) (c : Ctx) (m : Msg) : (sys a1 a2 c).node (669, 0) m = .fwd false [((673, 0), m)] := by rw [sys_eq]; rfl
theorem n671 (a1 : ℚ) (a2 : ℚ) (c : Ctx) (i : Nat) (m : Msg) : (sys a1 a2 c).node (671, i) m = .fwd false [((567, 0), m)] := by rw [sys_eq]; rfl
theorem n672 (a1 : ℚ) (a2 : ℚ) (c : Ctx) (i : Nat) (m : Msg) : (sys a1 a2 c).node (672, i) m = .obj (beh c (.tabread 2) 672 i m) := by rw [sys_eq]; rfl
theorem o672_0 (a1 : ℚ) (a2 : ℚ) (c : Ctx) : (sys a1 a2 c).out 672 0 = [(671, 0)] := by rw [sys_eq]; rfl
theorem n673_0 (a1 : ℚ) (a2 : ℚ) (c : Ctx) (m : Msg) : (sys a1 a2 c).node (673, 0) m = .fwd false [((676, 0), m)] := by rw [sys_eq]; rfl
theorem n673_1 (a1 : ℚ) (a2 : ℚ) (c : Ctx) (m : Msg) : (sys a1 a2 c).node (673, 1) m = .fwd false [] := by rw [sys_eq]; rfl
theorem n676 (a1 : ℚ) (a2 : ℚ) (c : Ctx) (i : Nat) (m : Msg) : (sys a1 a2 c).node (676, i) m = .obj (beh c (.switch [(.sym "set")]) 676 i m) := by rw [sys_eq]; rfl
theorem o676_0 (a1 : ℚ) (a2 : ℚ) (c : Ctx) : (sys a1 a2 c).out 676 0 = [(678, 0)] := by rw [sys_eq]; rfl
theorem o676_1 (a1 : ℚ) (a2 : ℚ) (c : Ctx) : (sys a1 a2 c).out 676 1 = [(677, 0)] := by rw [sys_eq]; rfl
theorem n677 (a1 : ℚ) (a2 : ℚ) (c : Ctx) (i : Nat) (m : Msg) : (sys a1 a2 c).node (677, i) m = .fwd false [((682, 0), m)] := by rw [sys_eq]; rfl
theorem n678 (a1 : ℚ) (a2 : ℚ) (c : Ctx) (i : Nat) (m : Msg) : (sys a1 a2 c).node (678, i) m = .obj (beh c (.slice 1 0) 678 i m) := by rw [sys_eq]; rfl
theorem o678_0 (a1 : ℚ) (a2 : ℚ) (c : Ctx) : (sys a1 a2 c).out 678 0 = [(679, 0)] := by rw [sys_eq]; rfl
theorem o678_1 (a1 : ℚ) (a2 : ℚ) (c : Ctx) : (sys a1 a2 c).out 678 1 = [(679, 0)] := by rw [sys_eq]; rfl
theorem n679 (a1 : ℚ) (a2 : ℚ) (c : Ctx) (i : Nat) (m : Msg) : (sys a1 a2 c).node (679, i) m = .fwd false [((672, 1), m)] := by rw [sys_eq]; rfl
theorem n680 (a1 : ℚ) (a2 : ℚ) (c : Ctx) (i : Nat) (m : Msg) : (sys a1 a2 c).node (680, i) m = .obj (beh c (.system) 680 i m) := by rw [sys_eq]; rfl
theorem o680_0 (a1 : ℚ) (a2 : ℚ) (c : Ctx) : (sys a1 a2 c).out 680 0 = [(690, 0)] := by rw [sys_eq]; rfl
theorem n681 (a1 : ℚ) (a2 : ℚ) (c : Ctx) (i : Nat) (m : Msg) : (sys a1 a2 c).node (681, i) m = .obj (beh c (.bink .max 0) 681 i m) := by rw [sys_eq]; rfl
theorem o681_0 (a1 : ℚ) (a2 : ℚ) (c : Ctx) : (sys a1 a2 c).out 681 0 = [(688, 0)] := by rw [sys_eq]; rfl
theorem n682 (a1 : ℚ) (a2 : ℚ) (c : Ctx) (i : Nat) (m : Msg) : (sys a1 a2 c).node (682, i) m = .fwd false (castTo .bang [(683, 0)] m ++ (castTo .float [(681, 0)] m ++ ([]))) := by rw [sys_eq, seq_T (cs := [some .float, some .bang]) (outs := [[(681, 0)], [(683, 0)]]) rfl]; rcases m with _ | ⟨_ | _ | _, _⟩ <;> rfl
theorem n683_0 (a1 : ℚ) (a2 : ℚ) (c : Ctx) (m : Msg) : (sys a1 a2 c).node (683, 0) m = .fwd false [((686, 0), m)] := by rw [sys_eq]; rfl
theorem n683_1 (a1 : ℚ) (a2 : ℚ) (c : Ctx) (m : Msg) : (sys a1 a2 c).node (683, 1) m = .fwd false [((686, 1), m)] := by rw [sys_eq]; rfl
theorem n685 (a1 : ℚ) (a2 : ℚ) (c : Ctx) (i : Nat) (m : Msg) : (sys a1 a2 c).node (685, i) m = .fwd false [((689, 0), m)] := by rw [sys_eq]; rfl
theorem n686 (a1 : ℚ) (a2 : ℚ) (c : Ctx) (i : Nat) (m : Msg) : (sys a1 a2 c).node (686, i) m = .obj (beh c (.var (.sym "1-ids")) 686 i m) := by rw [sys_eq]; rfl
theorem o686_0 (a1 : ℚ) (a2 : ℚ) (c : Ctx) : (sys a1 a2 c).out 686 0 = [(685, 0)] := by rw [sys_eq]; rfl
theorem n688 (a1 : ℚ) (a2 : ℚ) (c : Ctx) (i : Nat) (m : Msg) : (sys a1 a2 c).node (688, i) m = .obj (beh c (.bin .min 0) 688 i m) := by rw [sys_eq]; rfl
theorem o688_0 (a1 : ℚ) (a2 : ℚ) (c : Ctx) : (sys a1 a2 c).out 688 0 = [(672, 0)] := by rw [sys_eq]; rfl
theorem n689 (a1 : ℚ) (a2 : ℚ) (c : Ctx) (i : Nat) (m : Msg) : (sys a1 a2 c).node (689, i) m = .obj (beh c (.msg [.lit (.sym "table"), .arg 0, .lit (.sym "length")]) 689 i m) := by rw [sys_eq]; rfl
theorem o689_0 (a1 : ℚ) (a2 : ℚ) (c : Ctx) : (sys a1 a2 c).out 689 0 = [(680, 0)] := by rw [sys_eq]; rfl
theorem n690 (a1 : ℚ) (a2 : ℚ) (c : Ctx) (i : Nat) (m : Msg) : (sys a1 a2 c).node (690, i) m = .obj (beh c (.bink .sub 1) 690 i m) := by rw [sys_eq]; rfl
theorem o690_0 (a1 : ℚ) (a2 : ℚ) (c : Ctx) : (sys a1 a2 c).out 690 0 = [(688, 1)] := by rw [sys_eq]; rfl
theorem n691_0 (a1 : ℚ) (a2 : ℚ) (c : Ctx) (m : Msg) : (sys a1 a2 c).node (691, 0) m = .fwd false [((696, 0), m)] := by rw [sys_eq]; rfl
theorem n691_1 (a1 : ℚ) (a2 : ℚ) (c : Ctx) (m : Msg) : (sys a1 a2 c).node (691, 1) m = .fwd false [((695, 1), m)] := by rw [sys_eq]; rfl
theorem n694 (a1 : ℚ) (a2 : ℚ) (c : Ctx) (i : Nat) (m : Msg) : (sys a1 a2 c).node (694, i) m = .fwd false [] := by rw [sys_eq]; rfl
theorem n695 (a1 : ℚ) (a2 : ℚ) (c : Ctx) (i : Nat) (m : Msg) : (sys a1 a2 c).node (695, i) m = .obj (beh c (.tabwrite 0) 695 i m) := by rw [sys_eq]; rfl
theorem o695_0 (a1 : ℚ) (a2 : ℚ) (c : Ctx) : (sys a1 a2 c).out 695 0 = [(694, 0)] := by rw [sys_eq]; rfl
theorem n696_0 (a1 : ℚ) (a2 : ℚ) (c : Ctx) (m : Msg) : (sys a1 a2 c).node (696, 0) m = .fwd false [((699, 0), m)] := by rw [sys_eq]; rfl
theorem n696_1 (a1 : ℚ) (a2 : ℚ) (c : Ctx) (m : Msg) : (sys a1 a2 c).node (696, 1) m = .fwd false [] := by rw [sys_eq]; rfl
theorem n699 (a1 : ℚ) (a2 : ℚ) (c : Ctx) (i : Nat) (m : Msg) : (sys a1 a2 c).node (699, i) m = .obj (beh c (.switch [(.sym "set")]) 699 i m) := by rw [sys_eq]; rfl
theorem o699_0 (a1 : ℚ) (a2 : ℚ) (c : Ctx) : (sys a1 a2 c).out 699 0 = [(701, 0)] := by rw [sys_eq]; rfl
theorem o699_1 (a1 : ℚ) (a2 : ℚ) (c : Ctx) : (sys a1 a2 c).out 699 1 = [(700, 0)] := by rw [sys_eq]; rfl
theorem n700 (a1 : ℚ) (a2 : ℚ) (c : Ctx) (i : Nat) (m : Msg) : (sys a1 a2 c).node (700, i) m = .fwd false [((695, 0), m)] := by rw [sys_eq]; rfl
theorem n701 (a1 : ℚ) (a2 : ℚ) (c : Ctx) (i : Nat) (m : Msg) : (sys a1 a2 c).node (701, i) m = .obj (beh c (.slice 1 0) 701 i m) := by rw [sys_eq]; rfl
theorem o701_0 (a1 : ℚ) (a2 : ℚ) (c : Ctx) : (sys a1 a2 c).out 701 0 = [(702, 0)] := by rw [sys_eq]; rfl
theorem o701_1 (a1 : ℚ) (a2 : ℚ) (c : Ctx) : (sys a1 a2 c).out 701 1 = [(702, 0)] := by rw [sys_eq]; rfl
theorem n702 (a1 : ℚ) (a2 : ℚ) (c : Ctx) (i : Nat) (m : Msg) : (sys a1 a2 c).node (702, i) m = .fwd false [((695, 2), m)] := by rw [sys_eq]; rfl
theorem n703_0 (a1 : ℚ) (a2 : ℚ) (c : Ctx) (m : Msg) : (sys a1 a2 c).node (703, 0) m = .fwd false [((707, 0), m)] := by rw [sys_eq]; rfl
theorem n705 (a1 : ℚ) (a2 : ℚ) (c : Ctx) (i : Nat) (m : Msg) : (sys a1 a2 c).node (705, i) m = .fwd false [((600, 0), m)] := by rw [sys_eq]; rfl
theorem n706 (a1 : ℚ) (a2 : ℚ) (c : Ctx) (i : Nat) (m : Msg) : (sys a1 a2 c).node (706, i) m = .obj (beh c (.tabread 0) 706 i m) := by rw [sys_eq]; rfl
theorem o706_0 (a1 : ℚ) (a2 : ℚ) (c : Ctx) : (sys a1 a2 c).out 706 0 = [(705, 0)] := by rw [sys_eq]; rfl
theorem n707_0 (a1 : ℚ) (a2 : ℚ) (c : Ctx) (m : Msg) : (sys a1 a2 c).node (707, 0) m = .fwd false [((710, 0), m)] := by rw [sys_eq]; rfl
theorem n707_1 (a1 : ℚ) (a2 : ℚ) (c : Ctx) (m : Msg) : (sys a1 a2 c).node (707, 1) m = .fwd false [] := by rw [sys_eq]; rfl
theorem n710 (a1 : ℚ) (a2 : ℚ) (c : Ctx) (i : Nat) (m : Msg) : (sys a1 a2 c).node (710, i) m = .obj (beh c (.switch [(.sym "set")]) 710 i m) := by rw [sys_eq]; rfl
theorem o710_0 (a1 : ℚ) (a2 : ℚ) (c : Ctx) : (sys a1 a2 c).out 710 0 = [(712, 0)] := by rw [sys_eq]; rfl
theorem o710_1 (a1 : ℚ) (a2 : ℚ) (c : Ctx) : (sys a1 a2 c).out 710 1 = [(711, 0)] := by rw [sys_eq]; rfl
theorem n711 (a1 : ℚ) (a2 : ℚ) (c : Ctx) (i : Nat) (m : Msg) : (sys a1 a2 c).node (711, i) m = .fwd false [((716, 0), m)] := by rw [sys_eq]; rfl
theorem n712 (a1 : ℚ) (a2 : ℚ) (c : Ctx) (i : Nat) (m : Msg) : (sys a1 a2 c).node (712, i) m = .obj (beh c (.slice 1 0) 712 i m) := by rw [sys_eq]; rfl
theorem o712_0 (a1 : ℚ) (a2 : ℚ) (c : Ctx) : (sys a1 a2 c).out 712 0 = [(713, 0)] := by rw [sys_eq]; rfl
theorem o712_1 (a1 : ℚ) (a2 : ℚ) (c : Ctx) : (sys a1 a2 c).out 712 1 = [(713, 0)] := by rw [sys_eq]; rfl
theorem n713 (a1 : ℚ) (a2 : ℚ) (c : Ctx) (i : Nat) (m : Msg) : (sys a1 a2 c).node (713, i) m = .fwd false [((706, 1), m)] := by rw [sys_eq]; rfl
theorem n714 (a1 : ℚ) (a2 : ℚ) (c : Ctx) (i : Nat) (m : Msg) : (sys a1 a2 c).node (714, i) m = .obj (beh c (.system) 714 i m) := by rw [sys_eq]; rfl
theorem o714_0 (a1 : ℚ) (a2 : ℚ) (c : Ctx) : (sys a1 a2 c).out 714 0 = [(724, 0)] := by rw [sys_eq]; rfl
theorem n715 (a1 : ℚ) (a2 : ℚ) (c : Ctx) (i : Nat) (m : Msg) : (sys a1 a2 c).node (715, i) m = .obj (beh c (.bink .max 0) 715 i m) := by rw [sys_eq]; rfl
theorem o715_0 (a1 : ℚ) (a2 : ℚ) (c : Ctx) : (sys a1 a2 c).out 715 0 = [(722, 0)] := by rw [sys_eq]; rfl
theorem n716 (a1 : ℚ) (a2 : ℚ) (c : Ctx) (i : Nat) (m : Msg) : (sys a1 a2 c).node (716, i) m = .fwd false (castTo .bang [(717, 0)] m ++ (castTo .float [(715, 0)] m ++ ([]))) := by rw [sys_eq, seq_T (cs := [some .float, some .bang]) (outs := [[(715, 0)], [(717, 0)]]) rfl]; rcases m with _ | ⟨_ | _ | _, _⟩ <;> rfl
theorem n717_0 (a1 : ℚ) (a2 : ℚ) (c : Ctx) (m : Msg) : (sys a1 a2 c).node (717, 0) m = .fwd false [((720, 0), m)] := by rw [sys_eq]; rfl
theorem n717_1 (a1 : ℚ) (a2 : ℚ) (c : Ctx) (m : Msg) : (sys a1 a2 c).node (717, 1) m = .fwd false [((720, 1), m)] := by rw [sys_eq]; rfl
theorem n719 (a1 : ℚ) (a2 : ℚ) (c : Ctx) (i : Nat) (m : Msg) : (sys a1 a2 c).node (719, i) m = .fwd false [((723, 0), m)] := by rw [sys_eq]; rfl
theorem n720 (a1 : ℚ) (a2 : ℚ) (c : Ctx) (i : Nat) (m : Msg) : (sys a1 a2 c).node (720, i) m = .obj (beh c (.var (.sym "1-pitches")) 720 i m) := by rw [sys_eq]; rfl
theorem o720_0 (a1 : ℚ) (a2 : ℚ) (c : Ctx) : (sys a1 a2 c).out 720 0 = [(719, 0)] := by rw [sys_eq]; rfl
theorem n722 (a1 : ℚ) (a2 : ℚ) (c : Ctx) (i : Nat) (m : Msg) : (sys a1 a2 c).node (722, i) m = .obj (beh c (.bin .min 0) 722 i m) := by rw [sys_eq]; rfl
theorem o722_0 (a1 : ℚ) (a2 : ℚ) (c : Ctx) : (sys a1 a2 c).out 722 0 = [(706, 0)] := by rw [sys_eq]; rfl
theorem n723 (a1 : ℚ) (a2 : ℚ) (c : Ctx) (i : Nat) (m : Msg) : (sys a1 a2 c).node (723, i) m = .obj (beh c (.msg [.lit (.sym "table"), .arg 0, .lit (.sym "length")]) 723 i m) := by rw [sys_eq]; rfl
theorem o723_0 (a1 : ℚ) (a2 : ℚ) (c : Ctx) : (sys a1 a2 c).out 723 0 = [(714, 0)] := by rw [sys_eq]; rfl
theorem n724 (a1 : ℚ) (a2 : ℚ) (c : Ctx) (i : Nat) (m : Msg) : (sys a1 a2 c).node (724, i) m = .obj (beh c (.bink .sub 1) 724 i m) := by rw [sys_eq]; rfl
theorem o724_0 (a1 : ℚ) (a2 : ℚ) (c : Ctx) : (sys a1 a2 c).out 724 0 = [(722, 1)] := by rw [sys_eq]; rfl
theorem n725_0 (a1 : ℚ) (a2 : ℚ) (c : Ctx) (m : Msg) : (sys a1 a2 c).node (725, 0) m = .fwd false [((730, 0), m)] := by rw [sys_eq]; rfl
theorem n725_1 (a1 : ℚ) (a2 : ℚ) (c : Ctx) (m : Msg) : (sys a1 a2 c).node (725, 1) m = .fwd false [((729, 1), m)] := by rw [sys_eq]; rfl
theorem n728 (a1 : ℚ) (a2 : ℚ) (c : Ctx) (i : Nat) (m : Msg) : (sys a1 a2 c).node (728, i) m = .fwd false [] := by rw [sys_eq]; rfl
theorem n729 (a1 : ℚ) (a2 : ℚ) (c : Ctx) (i : Nat) (m : Msg) : (sys a1 a2 c).node (729, i) m = .obj (beh c (.tabwrite 0) 729 i m) := by rw [sys_eq]; rfl
theorem o729_0 (a1 : ℚ) (a2 : ℚ) (c : Ctx) : (sys a1 a2 c).out 729 0 = [(728, 0)] := by rw [sys_eq]; rfl
theorem n730_0 (a1 : ℚ) (a2 : ℚ) (c : Ctx) (m : Msg) : (sys a1 a2 c).node (730, 0) m = .fwd false [((733, 0), m)] := by rw [sys_eq]; rfl
theorem n730_1 (a1 : ℚ) (a2 : ℚ) (c : Ctx) (m : Msg) : (sys a1 a2 c).node (730, 1) m = .fwd false [] := by rw [sys_eq]; rfl
theorem n733 (a1 : ℚ) (a2 : ℚ) (c : Ctx) (i : Nat) (m : Msg) : (sys a1 a2 c).node (733, i) m = .obj (beh c (.switch [(.sym "set")]) 733 i m) := by rw [sys_eq]; rfl
theorem o733_0 (a1 : ℚ) (a2 : ℚ) (c : Ctx) : (sys a1 a2 c).out 733 0 = [(735, 0)] := by rw [sys_eq]; rfl
theorem o733_1 (a1 : ℚ) (a2 : ℚ) (c : Ctx) : (sys a1 a2 c).out 733 1 = [(734, 0)] := by rw [sys_eq]; rfl
theorem n734 (a1 : ℚ) (a2 : ℚ) (c : Ctx) (i : Nat) (m : Msg) : (sys a1 a2 c).node (734, i) m = .fwd false [((729, 0), m)] := by rw [sys_eq]; rfl
theorem n735 (a1 : ℚ) (a2 : ℚ) (c : Ctx) (i : Nat) (m : Msg) : (sys a1 a2 c).node (735, i) m = .obj (beh c (.slice 1 0) 735 i m) := by rw [sys_eq]; rfl
theorem o735_0 (a1 : ℚ) (a2 : ℚ) (c : Ctx) : (sys a1 a2 c).out 735 0 = [(736, 0)] := by rw [sys_eq]; rfl
theorem o735_1 (a1 : ℚ) (a2 : ℚ) (c : Ctx) : (sys a1 a2 c).out 735 1 = [(736, 0)] := by rw [sys_eq]; rfl
theorem n736 (a1 : ℚ) (a2 : ℚ) (c : Ctx) (i : Nat) (m : Msg) : (sys a1 a2 c).node (736, i) m = .fwd false [((729, 2), m)] := by rw [sys_eq]; rfl
theorem n737_0 (a1 : ℚ) (a2 : ℚ) (c : Ctx) (m : Msg) : (sys a1 a2 c).node (737, 0) m = .fwd false [((742, 0), m)] := by rw [sys_eq]; rfl
theorem n737_1 (a1 : ℚ) (a2 : ℚ) (c : Ctx) (m : Msg) : (sys a1 a2 c).node (737, 1) m = .fwd false [((741, 1), m)] := by rw [sys_eq]; rfl
theorem n740 (a1 : ℚ) (a2 : ℚ) (c : Ctx) (i : Nat) (m : Msg) : (sys a1 a2 c).node (740, i) m = .fwd false [] := by rw [sys_eq]; rfl
theorem n741 (a1 : ℚ) (a2 : ℚ) (c : Ctx) (i : Nat) (m : Msg) : (sys a1 a2 c).node (741, i) m = .obj (beh c (.tabwrite 1) 741 i m) := by rw [sys_eq]; rfl
theorem o741_0 (a1 : ℚ) (a2 : ℚ) (c : Ctx) : (sys a1 a2 c).out 741 0 = [(740, 0)] := by rw [sys_eq]; rfl
theorem n742_0 (a1 : ℚ) (a2 : ℚ) (c : Ctx) (m : Msg) : (sys a1 a2 c).node (742, 0) m = .fwd false [((745, 0), m)] := by rw [sys_eq]; rfl
theorem n742_1 (a1 : ℚ) (a2 : ℚ) (c : Ctx) (m : Msg) : (sys a1 a2 c).node (742, 1) m = .fwd false [] := by rw [sys_eq]; rfl
theorem n745 (a1 : ℚ) (a2 : ℚ) (c : Ctx) (i : Nat) (m : Msg) : (sys a1 a2 c).node (745, i) m = .obj (beh c (.switch [(.sym "set")]) 745 i m) := by rw [sys_eq]; rfl
theorem o745_0 (a1 : ℚ) (a2 : ℚ) (c : Ctx) : (sys a1 a2 c).out 745 0 = [(747, 0)] := by rw [sys_eq]; rfl
theorem o745_1 (a1 : ℚ) (a2 : ℚ) (c : Ctx) : (sys a1 a2 c).out 745 1 = [(746, 0)] := by rw [sys_eq]; rfl
theorem n746 (a1 : ℚ) (a2 : ℚ) (c : Ctx) (i : Nat) (m : Msg) : (sys a1 a2 c).node (746, i) m = .fwd false [((741, 0), m)] := by rw [sys_eq]; rfl
theorem n747 (a1 : ℚ) (a2 : ℚ) (c : Ctx) (i : Nat) (m : Msg) : (sys a1 a2 c).node (747, i) m = .obj (beh c (.slice 1 0) 747 i m) := by rw [sys_eq]; rfl
theorem o747_0 (a1 : ℚ) (a2 : ℚ) (c : Ctx) : (sys a1 a2 c).out 747 0 = [(748, 0)] := by rw [sys_eq]; rfl
theorem o747_1 (a1 : ℚ) (a2 : ℚ) (c : Ctx) : (sys a1 a2 c).out 747 1 = [(748, 0)] := by rw [sys_eq]; rfl
theorem n748 (a1 : ℚ) (a2 : ℚ) (c : Ctx) (i : Nat) (m : Msg) : (sys a1 a2 c).node (748, i) m = .fwd false [((741, 2), m)] := by rw [sys_eq]; rfl
theorem n749_0 (a1 : ℚ) (a2 : ℚ) (c : Ctx) (m : Msg) : (sys a1 a2 c).node (749, 0) m = .fwd false [((754, 0), m)] := by rw [sys_eq]; rfl
theorem n749_1 (a1 : ℚ) (a2 : ℚ) (c : Ctx) (m : Msg) : (sys a1 a2 c).node (749, 1) m = .fwd false [((753, 1), m)] := by rw [sys_eq]; rfl
theorem n752 (a1 : ℚ) (a2 : ℚ) (c : Ctx) (i : Nat) (m : Msg) : (sys a1 a2 c).node (752, i) m = .fwd false [] := by rw [sys_eq]; rfl
theorem n753 (a1 : ℚ) (a2 : ℚ) (c : Ctx) (i : Nat) (m : Msg) : (sys a1 a2 c).node (753, i) m = .obj (beh c (.tabwrite 2) 753 i m) := by rw [sys_eq]; rfl
theorem o753_0 (a1 : ℚ) (a2 : ℚ) (c : Ctx) : (sys a1 a2 c).out 753 0 = [(752, 0)] := by rw [sys_eq]; rfl
theorem n754_0 (a1 : ℚ) (a2 : ℚ) (c : Ctx) (m : Msg) : (sys a1 a2 c).node (754, 0) m = .fwd false [((757, 0), m)] := by rw [sys_eq]; rfl
theorem n754_1 (a1 : ℚ) (a2 : ℚ) (c : Ctx) (m : Msg) : (sys a1 a2 c).node (754, 1) m = .fwd false [] := by rw [sys_eq]; rfl
theorem n757 (a1 : ℚ) (a2 : ℚ) (c : Ctx) (i : Nat) (m : Msg) : (sys a1 a2 c).node (757, i) m = .obj (beh c (.switch [(.sym "set")]) 757 i m) := by rw [sys_eq]; rfl
theorem o757_0 (a1 : ℚ) (a2 : ℚ) (c : Ctx) : (sys a1 a2 c).out 757 0 = [(759, 0)] := by rw [sys_eq]; rfl
theorem o757_1 (a1 : ℚ) (a2 : ℚ) (c : Ctx) : (sys a1 a2 c).out 757 1 = [(758, 0)] := by rw [sys_eq]; rfl
theorem n758 (a1 : ℚ) (a2 : ℚ) (c : Ctx) (i : Nat) (m : Msg) : (sys a1 a2 c).node (758, i) m = .fwd false [((753, 0), m)] := by rw [sys_eq]; rfl
theorem n759 (a1 : ℚ) (a2 : ℚ) (c : Ctx) (i : Nat) (m : Msg) : (sys a1 a2 c).node (759, i) m = .obj (beh c (.slice 1 0) 759 i m) := by rw [sys_eq]; rfl
theorem o759_0 (a1 : ℚ) (a2 : ℚ) (c : Ctx) : (sys a1 a2 c).out 759 0 = [(760, 0)] := by rw [sys_eq]; rfl
theorem o759_1 (a1 : ℚ) (a2 : ℚ) (c : Ctx) : (sys a1 a2 c).out 759 1 = [(760, 0)] := by rw [sys_eq]; rfl
theorem n760 (a1 : ℚ) (a2 : ℚ) (c : Ctx) (i : Nat) (m : Msg) : (sys a1 a2 c).node (760, i) m = .fwd false [((753, 2), m)] := by rw [sys_eq]; rfl
theorem n761_0 (a1 : ℚ) (a2 : ℚ) (c : Ctx) (m : Msg) : (sys a1 a2 c).node (761, 0) m = .fwd false [((766, 0), m)] := by rw [sys_eq]; rfl
theorem n761_1 (a1 : ℚ) (a2 : ℚ) (c : Ctx) (m : Msg) : (sys a1 a2 c).node (761, 1) m = .fwd false [((765, 1), m)] := by rw [sys_eq]; rfl
theorem n764 (a1 : ℚ) (a2 : ℚ) (c : Ctx) (i : Nat) (m : Msg) : (sys a1 a2 c).node (764, i) m = .fwd false [] := by rw [sys_eq]; rfl
theorem n765 (a1 : ℚ) (a2 : ℚ) (c : Ctx) (i : Nat) (m : Msg) : (sys a1 a2 c).node (765, i) m = .obj (beh c (.tabwrite 2) 765 i m) := by rw [sys_eq]; rfl
theorem o765_0 (a1 : ℚ) (a2 : ℚ) (c : Ctx) : (sys a1 a2 c).out 765 0 = [(764, 0)] := by rw [sys_eq]; rfl
theorem n766_0 (a1 : ℚ) (a2 : ℚ) (c : Ctx) (m : Msg) : (sys a1 a2 c).node (766, 0) m = .fwd false [((769, 0), m)] := by rw [sys_eq]; rfl
theorem n766_1 (a1 : ℚ) (a2 : ℚ) (c : Ctx) (m : Msg) : (sys a1 a2 c).node (766, 1) m = .fwd false [] := by rw [sys_eq]; rfl
theorem n769 (a1 : ℚ) (a2 : ℚ) (c : Ctx) (i : Nat) (m : Msg) : (sys a1 a2 c).node (769, i) m = .obj (beh c (.switch [(.sym "set")]) 769 i m) := by rw [sys_eq]; rfl
theorem o769_0 (a1 : ℚ) (a2 : ℚ) (c : Ctx) : (sys a1 a2 c).out 769 0 = [(771, 0)] := by rw [sys_eq]; rfl
theorem o769_1 (a1 : ℚ) (a2 : ℚ) (c : Ctx) : (sys a1 a2 c).out 769 1 = [(770, 0)] := by rw [sys_eq]; rfl
theorem n770 (a1 : ℚ) (a2 : ℚ) (c : Ctx) (i : Nat) (m : Msg) : (sys a1 a2 c).node (770, i) m = .fwd false [((765, 0), m)] := by rw [sys_eq]; rfl
theorem n771 (a1 : ℚ) (a2 : ℚ) (c : Ctx) (i : Nat) (m : Msg) : (sys a1 a2 c).node (771, i) m = .obj (beh c (.slice 1 0) 771 i m) := by rw [sys_eq]; rfl
theorem o771_0 (a1 : ℚ) (a2 : ℚ) (c : Ctx) : (sys a1 a2 c).out 771 0 = [(772, 0)] := by rw [sys_eq]; rfl
theorem o771_1 (a1 : ℚ) (a2 : ℚ) (c : Ctx) : (sys a1 a2 c).out 771 1 = [(772, 0)] := by rw [sys_eq]; rfl
theorem n772 (a1 : ℚ) (a2 : ℚ) (c : Ctx) (i : Nat) (m : Msg) : (sys a1 a2 c).node (772, i) m = .fwd false [((765, 2), m)] := by rw [sys_eq]; rfl
theorem n773 (a1 : ℚ) (a2 : ℚ) (c : Ctx) (i : Nat) (m : Msg) : (sys a1 a2 c).node (773, i) m = .fwd false (castTo .bang [(775, 0)] m ++ (castTo .bang [(776, 0)] m ++ ([]))) := by rw [sys_eq, seq_T (cs := [some .bang, some .bang]) (outs := [[(776, 0)], [(775, 0)]]) rfl]; rfl
theorem n775 (a1 : ℚ) (a2 : ℚ) (c : Ctx) (i : Nat) (m : Msg) : (sys a1 a2 c).node (775, i) m = .fwd true [((13, 0), m)] := by rw [sys_eq]; rfl
theorem n776_0 (a1 : ℚ) (a2 : ℚ) (c : Ctx) (m : Msg) : (sys a1 a2 c).node (776, 0) m = .fwd false [((777, 0), m)] := by rw [sys_eq]; rfl
theorem n776_1 (a1 : ℚ) (a2 : ℚ) (c : Ctx) (m : Msg) : (sys a1 a2 c).node (776, 1) m = .fwd false [((777, 1), m)] := by rw [sys_eq]; rfl
theorem n777 (a1 : ℚ) (a2 : ℚ) (c : Ctx) (i : Nat) (m : Msg) : (sys a1 a2 c).node (777, i) m = .obj (beh c (.var (.float 0)) 777 i m) := by rw [sys_eq]; rfl
theorem o777_0 (a1 : ℚ) (a2 : ℚ) (c : Ctx) : (sys a1 a2 c).out 777 0 = [(778, 0)] := by rw [sys_eq]; rfl
theorem n778 (a1 : ℚ) (a2 : ℚ) (c : Ctx) (i : Nat) (m : Msg) : (sys a1 a2 c).node (778, i) m = .fwd false [((761, 0), m)] := by rw [sys_eq]; rfl
theorem n781 (a1 : ℚ) (a2 : ℚ) (c : Ctx) (i : Nat) (m : Msg) : (sys a1 a2 c).node (781, i) m = .fwd false (castTo .bang [(636, 0)] m ++ ([((801, 0), m)] ++ (castTo .bang [(615, 0)] m ++ (castTo .bang [(623, 0)] m ++ (castTo .bang [(773, 0)] m ++ ([])))))) := by rw [sys_eq, seq_T (cs := [some .bang, some .bang, some .bang, none, some .bang]) (outs := [[(773, 0)], [(623, 0)], [(615, 0)], [(801, 0)], [(636, 0)]]) rfl]; rfl
theorem n782 (a1 : ℚ) (a2 : ℚ) (c : Ctx) (i : Nat) (m : Msg) : (sys a1 a2 c).node (782, i) m = .fwd false (castTo .float [(596, 1)] m ++ (castTo .bang [(811, 0)] m ++ ([]))) := by rw [sys_eq, seq_T (cs := [some .bang, some .float]) (outs := [[(811, 0)], [(596, 1)]]) rfl]; rcases m with _ | ⟨_ | _ | _, _⟩ <;> rfl
theorem n783_0 (a1 : ℚ) (a2 : ℚ) (c : Ctx) (m : Msg) : (sys a1 a2 c).node (783, 0) m = .fwd false [((788, 0), m)] := by rw [sys_eq]; rfl
theorem n783_1 (a1 : ℚ) (a2 : ℚ) (c : Ctx) (m : Msg) : (sys a1 a2 c).node (783, 1) m = .fwd false [((787, 1), m)] := by rw [sys_eq]; rfl
theorem n786 (a1 : ℚ) (a2 : ℚ) (c : Ctx) (i : Nat) (m : Msg) : (sys a1 a2 c).node (786, i) m = .fwd false [] := by rw [sys_eq]; rfl
theorem n787 (a1 : ℚ) (a2 : ℚ) (c : Ctx) (i : Nat) (m : Msg) : (sys a1 a2 c).node (787, i) m = .obj (beh c (.tabwrite 1) 787 i m) := by rw [sys_eq]; rfl
theorem o787_0 (a1 : ℚ) (a2 : ℚ) (c : Ctx) : (sys a1 a2 c).out 787 0 = [(786, 0)] := by rw [sys_eq]; rfl
theorem n788_0 (a1 : ℚ) (a2 : ℚ) (c : Ctx) (m : Msg) : (sys a1 a2 c).node (788, 0) m = .fwd false [((791, 0), m)] := by rw [sys_eq]; rfl
theorem n788_1 (a1 : ℚ) (a2 : ℚ) (c : Ctx) (m : Msg) : (sys a1 a2 c).node (788, 1) m = .fwd false [] := by rw [sys_eq]; rfl
theorem n791 (a1 : ℚ) (a2 : ℚ) (c : Ctx) (i : Nat) (m : Msg) : (sys a1 a2 c).node (791, i) m = .obj (beh c (.switch [(.sym "set")]) 791 i m) := by rw [sys_eq]; rfl
theorem o791_0 (a1 : ℚ) (a2 : ℚ) (c : Ctx) : (sys a1 a2 c).out 791 0 = [(793, 0)] := by rw [sys_eq]; rfl
theorem o791_1 (a1 : ℚ) (a2 : ℚ) (c : Ctx) : (sys a1 a2 c).out 791 1 = [(792, 0)] := by rw [sys_eq]; rfl
theorem n792 (a1 : ℚ) (a2 : ℚ) (c : Ctx) (i : Nat) (m : Msg) : (sys a1 a2 c).node (792, i) m = .fwd false [((787, 0), m)] := by rw [sys_eq]; rfl
theorem n793 (a1 : ℚ) (a2 : ℚ) (c : Ctx) (i : Nat) (m : Msg) : (sys a1 a2 c).node (793, i) m = .obj (beh c (.slice 1 0) 793 i m) := by rw [sys_eq]; rfl
theorem o793_0 (a1 : ℚ) (a2 : ℚ) (c : Ctx) : (sys a1 a2 c).out 793 0 = [(794, 0)] := by rw [sys_eq]; rfl
theorem o793_1 (a1 : ℚ) (a2 : ℚ) (c : Ctx) : (sys a1 a2 c).out 793 1 = [(794, 0)] := by rw [sys_eq]; rfl
theorem n794 (a1 : ℚ) (a2 : ℚ) (c : Ctx) (i : Nat) (m : Msg) : (sys a1 a2 c).node (794, i) m = .fwd false [((787, 2), m)] := by rw [sys_eq]; rfl
theorem n796_0 (a1 : ℚ) (a2 : ℚ) (c : Ctx) (m : Msg) : (sys a1 a2 c).node (796, 0) m = .fwd false [((797, 0), m)] := by rw [sys_eq]; rfl
theorem n796_1 (a1 : ℚ) (a2 : ℚ) (c : Ctx) (m : Msg) : (sys a1 a2 c).node (796, 1) m = .fwd false [((797, 1), m)] := by rw [sys_eq]; rfl
theorem n797 (a1 : ℚ) (a2 : ℚ) (c : Ctx) (i : Nat) (m : Msg) : (sys a1 a2 c).node (797, i) m = .obj (beh c (.var (.float 0)) 797 i m) := by rw [sys_eq]; rfl
theorem o797_0 (a1 : ℚ) (a2 : ℚ) (c : Ctx) : (sys a1 a2 c).out 797 0 = [(798, 0)] := by rw [sys_eq]; rfl
theorem n798 (a1 : ℚ) (a2 : ℚ) (c : Ctx) (i : Nat) (m : Msg) : (sys a1 a2 c).node (798, i) m = .fwd false [((573, 0), m)] := by rw [sys_eq]; rfl
theorem n801_0 (a1 : ℚ) (a2 : ℚ) (c : Ctx) (m : Msg) : (sys a1 a2 c).node (801, 0) m = .fwd false [((803, 0), m), ((805, 0), m)] := by rw [sys_eq]; rfl
theorem n803 (a1 : ℚ) (a2 : ℚ) (c : Ctx) (i : Nat) (m : Msg) : (sys a1 a2 c).node (803, i) m = .obj (beh c (.slice 1 1) 803 i m) := by rw [sys_eq]; rfl
theorem o803_0 (a1 : ℚ) (a2 : ℚ) (c : Ctx) : (sys a1 a2 c).out 803 0 = [(804, 0)] := by rw [sys_eq]; rfl
theorem o803_1 (a1 : ℚ) (a2 : ℚ) (c : Ctx) : (sys a1 a2 c).out 803 1 = [] := by rw [sys_eq]; rfl
theorem n804 (a1 : ℚ) (a2 : ℚ) (c : Ctx) (i : Nat) (m : Msg) : (sys a1 a2 c).node (804, i) m = .fwd false [((601, 0), m)] := by rw [sys_eq]; rfl
theorem n805 (a1 : ℚ) (a2 : ℚ) (c : Ctx) (i : Nat) (m : Msg) : (sys a1 a2 c).node (805, i) m = .obj (beh c (.slice 0 1) 805 i m) := by rw [sys_eq]; rfl
theorem o805_0 (a1 : ℚ) (a2 : ℚ) (c : Ctx) : (sys a1 a2 c).out 805 0 = [(806, 0)] := by rw [sys_eq]; rfl
theorem o805_1 (a1 : ℚ) (a2 : ℚ) (c : Ctx) : (sys a1 a2 c).out 805 1 = [] := by rw [sys_eq]; rfl
theorem n806 (a1 : ℚ) (a2 : ℚ) (c : Ctx) (i : Nat) (m : Msg) : (sys a1 a2 c).node (806, i) m = .fwd false [((807, 0), m)] := by rw [sys_eq]; rfl
theorem n807 (a1 : ℚ) (a2 : ℚ) (c : Ctx) (i : Nat) (m : Msg) : (sys a1 a2 c).node (807, i) m = .fwd false ([((691, 0), m)] ++ ([((600, 0), m)] ++ ([]))) := by rw [sys_eq, seq_T (cs := [none, none]) (outs := [[(600, 0)], [(691, 0)]]) rfl]; rfl
theorem n808 (a1 : ℚ) (a2 : ℚ) (c : Ctx) (i : Nat) (m : Msg) : (sys a1 a2 c).node (808, i) m = .fwd false ([((725, 0), m)] ++ ([((600, 0), m)] ++ ([]))) := by rw [sys_eq, seq_T (cs := [none, none]) (outs := [[(600, 0)], [(725, 0)]]) rfl]; rfl
theorem n811_0 (a1 : ℚ) (a2 : ℚ) (c : Ctx) (m : Msg) : (sys a1 a2 c).node (811, 0) m = .fwd false [((812, 0), m)] := by rw [sys_eq]; rfl
theorem n811_1 (a1 : ℚ) (a2 : ℚ) (c : Ctx) (m : Msg) : (sys a1 a2 c).node (811, 1) m = .fwd false [((812, 1), m)] := by rw [sys_eq]; rfl
theorem n812 (a1 : ℚ) (a2 : ℚ) (c : Ctx) (i : Nat) (m : Msg) : (sys a1 a2 c).node (812, i) m = .obj (beh c (.var (.float 0)) 812 i m) := by rw [sys_eq]; rfl
theorem o812_0 (a1 : ℚ) (a2 : ℚ) (c : Ctx) : (sys a1 a2 c).out 812 0 = [(813, 0)] := by rw [sys_eq]; rfl
theorem n813 (a1 : ℚ) (a2 : ℚ) (c : Ctx) (i : Nat) (m : Msg) : (sys a1 a2 c).node (813, i) m = .fwd false [((596, 0), m)] := by rw [sys_eq]; rfl
theorem n816 (a1 : ℚ) (a2 : ℚ) (c : Ctx) (i : Nat) (m : Msg) : (sys a1 a2 c).node (816, i) m = .obj (beh c (.probe 0) 816 i m) := by rw [sys_eq]; rfl
theorem n817 (a1 : ℚ) (a2 : ℚ) (c : Ctx) (i : Nat) (m : Msg) : (sys a1 a2 c).node (817, i) m = .obj (beh c (.probe 1) 817 i m) := by rw [sys_eq]; rfl
theorem n818 (a1 : ℚ) (a2 : ℚ) (c : Ctx) (i : Nat) (m : Msg) : (sys a1 a2 c).node (818, i) m = .obj (beh c (.probe 2) 818 i m) := by rw [sys_eq]; rfl
theorem n819 (a1 : ℚ) (a2 : ℚ) (c : Ctx) (i : Nat) (m : Msg) : (sys a1 a2 c).node (819, i) m = .obj (beh c (.none) 819 i m) := by rw [sys_eq]; rfl
theorem o819_0 (a1 : ℚ) (a2 : ℚ) (c : Ctx) : (sys a1 a2 c).out 819 0 = [(0, 0)] := by rw [sys_eq]; rfl
theorem n820 (a1 : ℚ) (a2 : ℚ) (c : Ctx) (i : Nat) (m : Msg) : (sys a1 a2 c).node (820, i) m = .obj (beh c (.none) 820 i m) := by rw [sys_eq]; rfl
theorem o820_0 (a1 : ℚ) (a2 : ℚ) (c : Ctx) : (sys a1 a2 c).out 820 0 = [(0, 1)] := by rw [sys_eq]; rfl

attribute [lib_poly] n0_0 n0_1 n1 n2 o2_0 n3 n4 n5 n8 n9 o9_0 n10 n11 o11_0 n13_0 n13_1 n14 o14_0 n15 n18 o18_0 n19 o19_0 n20 o20_0 n21 o21_0 n22 n23 n24 o24_0 n26_0 n26_1 n29 o29_0 o29_1 o29_2 n30 n31 o31_0 o31_1 n32 n33 o33_0 o33_1 n34 n35_0 n37 o37_0 o37_1 n38 n39 o39_0 o39_1 n40 n41_0 n41_1 n42 o42_0 n43 n47 o47_0 n48 n49_0 n49_1 n52 n53 o53_0 o53_1 n54 n55_0 n55_1 n58 n59 o59_0 o59_1 n60 o60_0 n61 n63 o63_0 n64_0 n64_1 n65 n66 n67 n68_0 n70 n71_0 n71_1 n74 n75 o75_0 o75_1 n76 o76_0 n77 n78_0 n78_1 n79 o79_0 n80 n83 o83_0 n84 o84_0 n85 n86_0 n86_1 n89 n90 n91 o91_0 n92 n93 o93_0 o93_1 n94_0 n94_1 n96_0 n96_1 n97 o97_0 n98 n102 n103 o103_0 o103_1 n104 o104_0 n105 o105_0 n106 o106_0 n107 n108 n109 o109_0 n110 n111 o111_0 n112_0 n114 n115 o115_0 n116_0 n116_1 n119 o119_0 o119_1 n120 n121 o121_0 o121_1 n122 n123 o123_0 n124 o124_0 n125 n126_0 n126_1 n128 n129 o129_0 n131 o131_0 n132 o132_0 n133 o133_0 n134_0 n136 n137 o137_0 n138_0 n138_1 n141 o141_0 o141_1 n142 n143 o143_0 o143_1 n144 n145 o145_0 n146 o146_0 n147 n148_0 n148_1 n150 n151 o151_0 n153 o153_0 n154 o154_0 n155 o155_0 n156_0 n156_1 n157 o157_0 n158 n161 o161_0 n162 n163_0 n165 o165_0 o165_1 n166 n167 o167_0 o167_1 n168 n169 n170_0 n172 n173 o173_0 n174_0 n174_1 n177 o177_0 o177_1 n178 n179 o179_0 o179_1 n180 n181 o181_0 n182 o182_0 n183 n184_0 n184_1 n186 n187 o187_0 n189 o189_0 n190 o190_0 n191 o191_0 n192 o192_0 n193 o193_0 n194 o194_0 n196_0 n196_1 n197 o197_0 n198 n201 o201_0 n202_0 n202_1 n205 o205_0 o205_1 n206 n207 n208 n209 n210_0 n210_1 n211 o211_0 n212 n215 n216_0 n216_1 n219 n220 o220_0 o220_1 n221_0 n221_1 n224 n225 o225_0 n226_0 n226_1 n229 o229_0 o229_1 n230 n231 o231_0 o231_1 n232 n233_0 n233_1 n236 n237 o237_0 n238_0 n238_1 n241 o241_0 o241_1 n242 n243 o243_0 o243_1 n244 n245 n247 n248_0 n248_1 n249 o249_0 n250 n253 n254 o254_0 n255_0 n255_1 n256 o256_0 n257 n260 n261_0 n263 o263_0 o263_1 n264 n265 o265_0 o265_1 n266 n267 o267_0 n270 o270_0 n271 n272_0 n274_0 n276 n277_0 n277_1 n280 n281 o281_0 o281_1 n282 o282_0 n283 n284_0 n284_1 n285 o285_0 n286 n289 o289_0 n290 o290_0 n291 n292_0 n292_1 n295 n296 n297 o297_0 n298 n299 o299_0 o299_1 n300_0 n300_1 n302_0 n302_1 n303 o303_0 n304 n308 n309 o309_0 o309_1 n310 o310_0 n311 o311_0 n312 o312_0 n313 n314 n315 o315_0 n316_0 n316_1 n319 n320 o320_0 n321_0 n321_1 n324 o324_0 o324_1 n325 n326 o326_0 o326_1 n327 n328 n329 o329_0 n330 n331_0 n333 n334 o334_0 n335_0 n335_1 n338 o338_0 o338_1 n339 n340 o340_0 o340_1 n341 n342 o342_0 n343 o343_0 n344 n345_0 n345_1 n347 n348 o348_0 n350 o350_0 n351 o351_0 n352 o352_0 n353 o353_0 n354 n355_0 n355_1 n358 n359 o359_0 o359_1 n360 n361 n362 n363 o363_0 n364_0 n366 n367 o367_0 n368_0 n368_1 n371 o371_0 o371_1 n372 n373 o373_0 o373_1 n374 n375 o375_0 n376 o376_0 n377 n378_0 n378_1 n380 n381 o381_0 n383 o383_0 n384 o384_0 n385 o385_0 n386 n387 n388 o388_0 n389 n390_0 n392_0 n394 n395_0 n395_1 n398 n399 o399_0 o399_1 n400 o400_0 n401 n402_0 n402_1 n403 o403_0 n404 n407 o407_0 n408 o408_0 n409 n410_0 n410_1 n413 n414 n415 o415_0 n416 n417 o417_0 o417_1 n418_0 n418_1 n420_0 n420_1 n421 o421_0 n422 n426 n427 o427_0 o427_1 n428 o428_0 n429 o429_0 n430 o430_0 n431 n432 n433 o433_0 n434_0 n434_1 n437 n438 o438_0 n439_0 n439_1 n442 o442_0 o442_1 n443 n444 o444_0 o444_1 n445 n446_0 n446_1 n449 n450 o450_0 n451_0 n451_1 n454 o454_0 o454_1 n455 n456 o456_0 o456_1 n457 n458 o458_0 n459 n460 o460_0 n461 n462 n463 n464_0 n464_1 n467 n468 o468_0 n469_0 n469_1 n472 o472_0 o472_1 n473 n474 o474_0 o474_1 n475 n476_0 n476_1 n477_0 n479 n480_0 n480_1 n483 n484 o484_0 o484_1 n485 o485_0 n486 n487_0 n487_1 n488 o488_0 n489 n492 o492_0 n493 o493_0 n494 n495_0 n495_1 n498 n499 n500 o500_0 n501 n502 o502_0 o502_1 n503_0 n503_1 n505_0 n505_1 n506 o506_0 n507 n511 n512 o512_0 o512_1 n513 o513_0 n514 o514_0 n515 o515_0 n516 n517 n518 o518_0 n519 o519_0 n520 o520_0 n521_0 n521_1 n524 o524_0 o524_1 n525 n526 n527 n528_0 n528_1 n529 o529_0 n530 n533 n534 n535 n536_0 n536_1 n539 n540 o540_0 o540_1 n541 o541_0 n542 o542_0 n543 n544 o544_0 n545_0 n545_1 n546 o546_0 n547 n550 n551 n552 n553 n554_0 n554_1 n557 o557_0 o557_1 n558 n559 n560 n561 o561_0 n562_0 n562_1 n563 o563_0 n564 n567 n568_0 n568_1 n569 o569_0 n570 n573 n574 n575 n576 o576_0 n577 o577_0 n578 n579 n580 o580_0 n581 n582 n584_0 n584_1 n587 n588 o588_0 o588_1 n589 n591_0 n591_1 n594 n595 o595_0 o595_1 n596 o596_0 n597 o597_0 n598 o598_0 n599 n600 n601 n603_0 n603_1 n604 o604_0 n605 n608_0 n610 o610_0 o610_1 n611 n612 o612_0 o612_1 n613 n615_0 n615_1 n616 o616_0 n617 n620 n621 n622 o622_0 n623 o623_0 n625_0 n625_1 n628 n629 o629_0 o629_1 n630 n631_0 n631_1 n632 o632_0 n633 n636 n637 o637_0 n638 n639 n641 n642_0 n642_1 n643 o643_0 n644 n647_0 n649 n650 o650_0 n651_0 n651_1 n654 o654_0 o654_1 n655 n656 o656_0 o656_1 n657 n658 o658_0 n659 o659_0 n660 n661_0 n661_1 n663 n664 o664_0 n666 o666_0 n667 o667_0 n668 o668_0 n669_0 n671 n672 o672_0 n673_0 n673_1 n676 o676_0 o676_1 n677 n678 o678_0 o678_1 n679 n680 o680_0 n681 o681_0 n682 n683_0 n683_1 n685 n686 o686_0 n688 o688_0 n689 o689_0 n690 o690_0 n691_0 n691_1 n694 n695 o695_0 n696_0 n696_1 n699 o699_0 o699_1 n700 n701 o701_0 o701_1 n702 n703_0 n705 n706 o706_0 n707_0 n707_1 n710 o710_0 o710_1 n711 n712 o712_0 o712_1 n713 n714 o714_0 n715 o715_0 n716 n717_0 n717_1 n719 n720 o720_0 n722 o722_0 n723 o723_0 n724 o724_0 n725_0 n725_1 n728 n729 o729_0 n730_0 n730_1 n733 o733_0 o733_1 n734 n735 o735_0 o735_1 n736 n737_0 n737_1 n740 n741 o741_0 n742_0 n742_1 n745 o745_0 o745_1 n746 n747 o747_0 o747_1 n748 n749_0 n749_1 n752 n753 o753_0 n754_0 n754_1 n757 o757_0 o757_1 n758 n759 o759_0 o759_1 n760 n761_0 n761_1 n764 n765 o765_0 n766_0 n766_1 n769 o769_0 o769_1 n770 n771 o771_0 o771_1 n772 n773 n775 n776_0 n776_1 n777 o777_0 n778 n781 n782 n783_0 n783_1 n786 n787 o787_0 n788_0 n788_1 n791 o791_0 o791_1 n792 n793 o793_0 o793_1 n794 n796_0 n796_1 n797 o797_0 n798 n801_0 n803 o803_0 o803_1 n804 n805 o805_0 o805_1 n806 n807 n808 n811_0 n811_1 n812 o812_0 n813 n816 n817 n818 n819 o819_0 n820 o820_0

end Verif.Lib.Poly
