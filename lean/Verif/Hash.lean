/-!
Model of the name hash: `hv_string_to_hash` (`hvcc/generators/ir2c/static/HvUtils.c:19-54`) and its two
Python counterparts `get_hash` (`hvcc/core/hv2ir/HeavyLangObject.py:377-419`,
`hvcc/generators/ir2c/HeavyObject.py:162-205`; the two bodies are identical).
-/
namespace Verif.Hash

abbrev Byte := BitVec 8

/-- HvUtils.c:23 `n = 0x5bd1e995` -/
def mulC : BitVec 32 := 0x5bd1e995#32

/-- HvUtils.c:36-38: `k *= n; k ^= (k >> r); k *= n` -/
def mixC (k : BitVec 32) : BitVec 32 :=
  let k := k * mulC
  let k := k ^^^ (k >>> 24)
  k * mulC

/-- HvUtils.c:34: unaligned little-endian 32-bit load of four characters -/
def word (a b c d : Byte) : BitVec 32 := d ++ c ++ b ++ a

/-- a `char` converted to `int` (signed or unsigned depending on the platform's `char`) -/
def charToInt (signed : Bool) (c : Byte) : BitVec 32 := if signed then c.signExtend 32 else c.zeroExtend 32

/-- HvUtils.c:32: the load of the Emscripten build, `str[0] | (str[1] << 8) | ...` on `char`s -/
def wordEm (signed : Bool) (a b c d : Byte) : BitVec 32 :=
  charToInt signed a ||| (charToInt signed b <<< 8) ||| (charToInt signed c <<< 16) ||| (charToInt signed d <<< 24)

/-- HvUtils.c:30-42: the loop over whole words, returns the hash and the remaining characters -/
def loopC (ld : Byte → Byte → Byte → Byte → BitVec 32) (x : BitVec 32) : List Byte → BitVec 32 × List Byte
  | a :: b :: c :: d :: rest => loopC ld ((x * mulC) ^^^ mixC (ld a b c d)) rest
  | l => (x, l)

/-- HvUtils.c:43-48: the fall-through switch on the number of remaining characters -/
def tailC (signed : Bool) (x : BitVec 32) : List Byte → BitVec 32
  | [a, b, c] =>
    let x := x ^^^ (charToInt signed c <<< 16)
    let x := x ^^^ (charToInt signed b <<< 8)
    (x ^^^ charToInt signed a) * mulC
  | [a, b] =>
    let x := x ^^^ (charToInt signed b <<< 8)
    (x ^^^ charToInt signed a) * mulC
  | [a] => (x ^^^ charToInt signed a) * mulC
  | _ => x

/-- HvUtils.c:49-52 -/
def finC (x : BitVec 32) : BitVec 32 :=
  let x := x ^^^ (x >>> 13)
  let x := x * mulC
  x ^^^ (x >>> 15)

/-- `hv_string_to_hash` of a non-NULL string with the given characters (without the final 0).
`signed`: is `char` signed on the platform; `em`: the Emscripten load. Little-endian platform. -/
def cHash (signed em : Bool) (s : List Byte) : BitVec 32 :=
  let r := loopC (if em then wordEm signed else word) (BitVec.ofNat 32 s.length) s
  finC (tailC signed r.1 r.2)

/-! ### Python -/

/-- UTF-8 encoding of one code point (`bytes(..., "utf-8")`); `none` for surrogates and values that are
not code points. -/
def utf8 (c : Nat) : Option (List Nat) :=
  if c < 0x80 then some [c]
  else if c < 0x800 then some [0xC0 + c / 64, 0x80 + c % 64]
  else if c < 0x10000 then
    if 0xD800 ≤ c ∧ c < 0xE000 then none
    else some [0xE0 + c / 4096, 0x80 + c / 64 % 64, 0x80 + c % 64]
  else if c < 0x110000 then some [0xF0 + c / 262144, 0x80 + c / 4096 % 64, 0x80 + c / 64 % 64, 0x80 + c % 64]
  else none

/-- UTF-8 encoding of a string -/
def utf8s : List Nat → Option (List Nat)
  | [] => some []
  | c :: cs => do some ((← utf8 c) ++ (← utf8s cs))

/-- HeavyLangObject.py:395 `unpack("@I", bytes(x[i:i + 4], "utf-8"))[0]`: an exception (`none`) unless
there are exactly four bytes -/
def pyWord (a b c d : Nat) : Option Nat := do
  match ← utf8s [a, b, c, d] with
  | [w, x, y, z] => some (w + x * 2^8 + y * 2^16 + z * 2^24)
  | _ => none

def mulP : Nat := 0x5bd1e995

/-- HeavyLangObject.py:394-401, the loop over groups of four characters -/
def loopP (h : Nat) : List Nat → Option (Nat × List Nat)
  | a :: b :: c :: d :: rest => do
    let k ← pyWord a b c d
    let k := (k * mulP) &&& 0xFFFFFFFF
    let k := k ^^^ (k >>> 24)
    let k := (k * mulP) &&& 0xFFFFFFFF
    let h := (h * mulP) &&& 0xFFFFFFFF
    loopP (h ^^^ k) rest
  | l => some (h, l)

/-- HeavyLangObject.py:403-411 -/
def tailP (h : Nat) (l : List Nat) : Nat :=
  let n := l.length
  let h := if n ≥ 3 then h ^^^ ((l.getD 2 0 <<< 16) &&& 0xFFFFFFFF) else h
  let h := if n ≥ 2 then h ^^^ ((l.getD 1 0 <<< 8) &&& 0xFFFFFFFF) else h
  if n ≥ 1 then ((h ^^^ l.getD 0 0) * mulP) &&& 0xFFFFFFFF else h

/-- HeavyLangObject.py:413-415 -/
def finP (h : Nat) : Nat :=
  let h := h ^^^ (h >>> 13)
  let h := (h * mulP) &&& 0xFFFFFFFF
  h ^^^ (h >>> 15)

/-- code points of "bang" -/
def bangStr : List Nat := [98, 97, 110, 103]

/-- `get_hash(x)` for a Python string given by its code points; `none` when an exception is raised -/
def pyHash (s : List Nat) : Option Nat :=
  if s = bangStr then some 0xFFFFFFFF
  else do
    let r ← loopP s.length s
    some (finP (tailP r.1 r.2))

/-- The hash constants written into the templates (`HV_HASH_*` in
`hvcc/generators/c2dpf/templates/HeavyDPF.cpp:13-38`, repeated in the Daisy, OWL and JS targets; `__hv_bang~` in
`hvcc/generators/ir2c/templates/Heavy_NAME.cpp:187`) with the names they stand for. -/
def reserved : List (String × Nat) := [
  ("__hv_notein", 0x67E37CA3),
  ("__hv_ctlin", 0x41BE0F9C),
  ("__hv_polytouchin", 0xBC530F59),
  ("__hv_pgmin", 0x2E1EA03D),
  ("__hv_touchin", 0x553925BD),
  ("__hv_bendin", 0x3083F0F7),
  ("__hv_midiin", 0x149631BE),
  ("__hv_midirealtimein", 0x6FFF0BCF),
  ("__hv_noteout", 0xD1D4AC2),
  ("__hv_ctlout", 0xE5E2A040),
  ("__hv_polytouchout", 0xD5ACA9D1),
  ("__hv_pgmout", 0x8753E39E),
  ("__hv_touchout", 0x476D4387),
  ("__hv_bendout", 0xE8458013),
  ("__hv_midiout", 0x6511DE55),
  ("__hv_midioutport", 0x165707E4),
  ("__hv_dpf_bpm", 0xDF8C2721),
  ("__hv_bang~", 0xDD21C0EB)]

end Verif.Hash
