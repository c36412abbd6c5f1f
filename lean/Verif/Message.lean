import Verif.Mem
import Verif.Hash
/-!
Byte-level model of `hvcc/generators/ir2c/static/HvMessage.h` and `HvMessage.c` on a 64-bit little-endian
platform: `sizeof(Element) = 16` (type at 0, data at 8), `sizeof(HvMessage) = 24` (timestamp at 0, numElements
at 4, numBytes at 6, first element at 8).  Pointers are 8 bytes.

`hv_assert` failures and undefined behaviour (negative index, unterminated string) are separate errors.
`fuel` is the number of bytes `strlen` looks at before the model gives up.
`msg_toString` is in `Verif.Print`.
-/
namespace Verif.Msg
open Mem

inductive Err
  | assertFail
  | ub
  deriving DecidableEq, Repr

abbrev R := Except Err

/-- `hv_assert`, HvUtils.h:201 -/
def assert (b : Bool) : R Unit := if b then .ok () else .error .assertFail

/-- `msg_getCoreSize`, HvMessage.h:57-60 -/
def coreSize (n : Nat) : R Nat := do
  assert (n > 0)
  .ok (24 + (n - 1) * 16)

/-- `msg_getTimestamp`, HvMessage.h:81-83 -/
def getTimestamp (M : Mem) (m : Nat) : Nat := rd M m 4
/-- `msg_setTimestamp`, HvMessage.h:85-87 -/
def setTimestamp (M : Mem) (m t : Nat) : Mem := wr M m 4 t
/-- `msg_getNumElements`, HvMessage.h:89-91 -/
def numElements (M : Mem) (m : Nat) : Nat := rd M (m + 4) 2
/-- `msg_getSize`, HvMessage.h:94-96 -/
def getSize (M : Mem) (m : Nat) : Nat := rd M (m + 6) 2

/-- `&(m->elem)+index` after `hv_assert(index < msg_getNumElements(m))`; a negative index passes the
assertion and is out of bounds -/
def elemAddr (M : Mem) (m : Nat) (i : Int) : R Nat := do
  assert (i < (numElements M m : Int))
  if i < 0 then .error .ub else .ok (m + 8 + 16 * i.toNat)

def tBang : Nat := 0
def tFloat : Nat := 1
def tSymbol : Nat := 2
def tHash : Nat := 3

/-- `msg_getType`, HvMessage.h:98-101 -/
def getType (M : Mem) (m : Nat) (i : Int) : R Nat := do .ok (rd M (← elemAddr M m i) 4)

/-- `msg_setBang`, HvMessage.h:103-107 -/
def setBang (M : Mem) (m : Nat) (i : Int) : R Mem := do
  let e ← elemAddr M m i
  .ok (wr (wr M e 4 tBang) (e + 8) 8 0)

/-- `msg_setFloat`, HvMessage.h:113-117 (`f` is the bit pattern) -/
def setFloat (M : Mem) (m : Nat) (i : Int) (f : BitVec 32) : R Mem := do
  let e ← elemAddr M m i
  .ok (wr (wr M e 4 tFloat) (e + 8) 4 f.toNat)

/-- `msg_setHash`, HvMessage.h:128-132 -/
def setHash (M : Mem) (m : Nat) (i : Int) (h : BitVec 32) : R Mem := do
  let e ← elemAddr M m i
  .ok (wr (wr M e 4 tHash) (e + 8) 4 h.toNat)

/-- `hv_strlen`: undefined when no terminator is found -/
def strlenR (fuel : Nat) (M : Mem) (p : Nat) : R Nat :=
  match strlen M p fuel with
  | some n => .ok n
  | none => .error .ub

/-- `msg_setSymbol`, HvMessage.h:147-155 -/
def setSymbol (fuel : Nat) (M : Mem) (m : Nat) (i : Int) (s : Nat) : R Mem := do
  let e ← elemAddr M m i
  assert (s ≠ 0)
  let M := wr (wr M e 4 tSymbol) (e + 8) 8 s
  let l ← strlenR fuel M s
  .ok (wr M (m + 6) 2 (rd M (m + 6) 2 + (l + 1) % 2^16))

/-- `msg_isBang` / `msg_isFloat` / `msg_isHash` / `msg_isSymbol`, HvMessage.h:109-111, 124-126, 134-136, 162-164 -/
def isType (t : Nat) (M : Mem) (m : Nat) (i : Int) : R Bool :=
  if i < (numElements M m : Int) then do .ok ((← getType M m i) == t) else .ok false

/-- `msg_isHashLike`, HvMessage.h:139-141 -/
def isHashLike (M : Mem) (m : Nat) (i : Int) : R Bool :=
  if i < (numElements M m : Int) then do
    .ok ((← getType M m i) == tHash || (← getType M m i) == tSymbol)
  else .ok false

/-- `msg_getFloat`, HvMessage.h:119-122 -/
def getFloat (M : Mem) (m : Nat) (i : Int) : R (BitVec 32) := do
  .ok (BitVec.ofNat 32 (rd M ((← elemAddr M m i) + 8) 4))

/-- `msg_getSymbol`, HvMessage.h:157-160 -/
def getSymbol (M : Mem) (m : Nat) (i : Int) : R Nat := do .ok (rd M ((← elemAddr M m i) + 8) 8)

/-- `msg_init`, HvMessage.c:19-24 -/
def init (M : Mem) (m n t : Nat) : R Mem := do
  let M := wr M m 4 t
  let M := wr M (m + 4) 2 n
  .ok (wr M (m + 6) 2 (← coreSize n))

/-- first three assignments of the `msg_initWith...` functions: timestamp, numElements = 1, numBytes -/
def initHeader (M : Mem) (m t b : Nat) : Mem := wr (wr (wr M m 4 t) (m + 4) 2 1) (m + 6) 2 b

/-- `msg_initWithFloat`, HvMessage.c:26-32 -/
def initWithFloat (M : Mem) (m t : Nat) (f : BitVec 32) : R Mem := setFloat (initHeader M m t 24) m 0 f

/-- `msg_initWithBang`, HvMessage.c:34-40 -/
def initWithBang (M : Mem) (m t : Nat) : R Mem := setBang (initHeader M m t 24) m 0

/-- `msg_initWithSymbol`, HvMessage.c:42-48 -/
def initWithSymbol (fuel : Nat) (M : Mem) (m t s : Nat) : R Mem := do
  let M := wr (wr M m 4 t) (m + 4) 2 1
  let l ← strlenR fuel M s
  setSymbol fuel (wr M (m + 6) 2 (24 + l % 2^16)) m 0 s

/-- `msg_initWithHash`, HvMessage.c:50-56 -/
def initWithHash (M : Mem) (m t : Nat) (h : BitVec 32) : R Mem := setHash (initHeader M m t 24) m 0 h

/-- `strncpy(dst, src, n)` where `src` is a string of length `l` -/
def strncpy (M : Mem) (dst src n l : Nat) : Mem :=
  fun x => if dst ≤ x ∧ x < dst + n then (if x - dst < l then M (src + (x - dst)) else 0) else M x

/-- the loop of `msg_copyToBuffer`, HvMessage.c:70-79: `k` iterations left, starting with element `i`;
returns the memory and `len_r` -/
def copyLoop (fuel m buf len : Nat) : Nat → Nat → Nat → Nat → Mem → R (Mem × Nat)
  | 0, _, _, lenR, M => .ok (M, lenR)
  | k + 1, i, p, lenR, M => do
    if ← isType tSymbol M m i then
      let s ← getSymbol M m i
      let l ← strlenR fuel M s
      let symLen := l + 1
      assert (lenR + symLen ≤ len)
      let M := strncpy M p s symLen l
      let M ← setSymbol fuel M buf i p
      copyLoop fuel m buf len k (i + 1) (p + symLen) (lenR + symLen) M
    else copyLoop fuel m buf len k (i + 1) p lenR M

/-- `msg_copyToBuffer`, HvMessage.c:58-82 -/
def copyToBuffer (fuel : Nat) (M : Mem) (m buf len : Nat) : R Mem := do
  let lenR ← coreSize (numElements M m)
  assert (lenR ≤ len)
  let n := numElements M m
  let M := memcpy M buf m lenR
  let (M, lenR) ← copyLoop fuel m buf len n 0 (buf + lenR) lenR M
  .ok (wr M (buf + 6) 2 lenR)

/-- `msg_copy`, HvMessage.c:85-91: `r` is the address returned by `malloc(msg_getSize(m))` -/
def copy (fuel : Nat) (M : Mem) (m r : Nat) : R Mem := copyToBuffer fuel M m r (getSize M m)

/-- character `i` of a format string: reading past the terminator is undefined -/
def fmtAt (fmt : List Byte) (i : Nat) : R Byte :=
  if h : i < fmt.length then .ok fmt[i] else if i = fmt.length then .ok 0 else .error .ub

def chB : Byte := 98
def chF : Byte := 102
def chH : Byte := 104
def chS : Byte := 115

/-- the loop of `msg_hasFormat`, HvMessage.c:100-108 -/
def formatLoop (M : Mem) (m : Nat) (fmt : List Byte) : Nat → Nat → R Bool
  | 0, _ => .ok true
  | k + 1, i => do
    let c ← fmtAt fmt i
    let ok ← if c = chB then isType tBang M m i
      else if c = chF then isType tFloat M m i
      else if c = chH then isType tHash M m i
      else if c = chS then isType tSymbol M m i
      else .ok false
    if ok then formatLoop M m fmt k (i + 1) else .ok false

/-- `msg_hasFormat`, HvMessage.c:97-110 -/
def hasFormat (M : Mem) (m : Nat) (fmt : List Byte) : R Bool := do
  let n := numElements M m
  if ← formatLoop M m fmt n 0 then .ok ((← fmtAt fmt n) == 0) else .ok false

/-- `!strcmp(p, q)` -/
def strEq (fuel : Nat) (M : Mem) (p q : Nat) : R Bool := do
  let l ← strlenR fuel M p
  let k ← strlenR fuel M q
  .ok (chars M p l == chars M q k)

/-- `hv_string_to_hash(s)` (signed `char`) -/
def strHash (fuel : Nat) (M : Mem) (s : Nat) : R (BitVec 32) :=
  if s = 0 then .ok 0 else do .ok (Hash.cHash true false (chars M s (← strlenR fuel M s)))

/-- `msg_getHash`, HvMessage.c:145-158 -/
def getHash (fuel : Nat) (M : Mem) (m : Nat) (i : Int) : R (BitVec 32) := do
  assert (i < (numElements M m : Int))
  let t ← getType M m i
  if t = tBang then .ok 0xFFFFFFFF#32
  else if t = tFloat then getFloat M m i
  else if t = tSymbol then do strHash fuel M (← getSymbol M m i)
  else if t = tHash then do .ok (BitVec.ofNat 32 (rd M ((← elemAddr M m i) + 8) 4))
  else .ok 0

/-- `msg_compareSymbol`, HvMessage.c:112-118 -/
def compareSymbol (fuel : Nat) (M : Mem) (m : Nat) (i : Int) (s : Nat) : R Bool := do
  let t ← getType M m i
  if t = tSymbol then strEq fuel M (← getSymbol M m i) s
  else if t = tHash then do
    .ok ((← getHash fuel M m i) == (← strHash fuel M s))
  else .ok false

/-- IEEE equality of single precision numbers given by their bit patterns -/
def isNaN (a : BitVec 32) : Bool := (a &&& 0x7F800000#32) == 0x7F800000#32 && (a &&& 0x007FFFFF#32) != 0#32
def feq (a b : BitVec 32) : Bool := !isNaN a && !isNaN b && (a == b || (a <<< 1 == 0#32 && b <<< 1 == 0#32))

/-- `msg_equalsElement`, HvMessage.c:120-133 -/
def equalsElement (fuel : Nat) (M : Mem) (m : Nat) (i : Int) (n : Nat) (j : Int) : R Bool :=
  if i < (numElements M m : Int) ∧ j < (numElements M n : Int) then do
    let t ← getType M m i
    if t = (← getType M n j) then
      if t = tBang then .ok true
      else if t = tFloat then do .ok (feq (← getFloat M m i) (← getFloat M n j))
      else if t = tSymbol then do compareSymbol fuel M m i (← getSymbol M n j)
      else if t = tHash then do .ok ((← getHash fuel M m i) == (← getHash fuel M n j))
      else .ok false
    else .ok false
  else .ok false

/-- `msg_setElementToFrom`, HvMessage.c:135-143: element `j` of message `n` := element `i` of message `m` -/
def setElementToFrom (fuel : Nat) (M : Mem) (n : Nat) (j : Int) (m : Nat) (i : Int) : R Mem := do
  let t ← getType M m i
  if t = tBang then setBang M n j
  else if t = tFloat then do setFloat M n j (← getFloat M m i)
  else if t = tSymbol then do setSymbol fuel M n j (← getSymbol M m i)
  else if t = tHash then do setHash M n j (← getHash fuel M m i)
  else .ok M

/-! ### the meaning of the bytes -/

/-- message elements -/
inductive Val
  | bang
  | float (f : BitVec 32)
  | sym (s : List Byte)
  | hash (h : BitVec 32)
  deriving DecidableEq, Repr

/-- the element at address `e` is `v` -/
def ElemIs (M : Mem) (e : Nat) : Val → Prop
  | .bang => rd M e 4 = tBang
  | .float f => rd M e 4 = tFloat ∧ rd M (e + 8) 4 = f.toNat
  | .sym s => rd M e 4 = tSymbol ∧ rd M (e + 8) 8 ≠ 0 ∧ IsStr M (rd M (e + 8) 8) s
  | .hash h => rd M e 4 = tHash ∧ rd M (e + 8) 4 = h.toNat

/-- the message at address `a` has timestamp `t` and elements `vs` -/
structure IsMsg (M : Mem) (a t : Nat) (vs : List Val) : Prop where
  ts : getTimestamp M a = t
  num : numElements M a = vs.length
  elem : ∀ (i : Nat) (h : i < vs.length), ElemIs M (a + 8 + 16 * i) vs[i]

/-- bytes of symbol text of an element, including the terminator -/
def symBytes : Val → Nat
  | .sym s => s.length + 1
  | _ => 0

/-- number of bytes of a self-contained message with these elements -/
def needed (vs : List Val) : Nat := 8 + 16 * vs.length + (vs.map symBytes).sum

end Verif.Msg
