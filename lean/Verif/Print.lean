import Verif.Message
/-!
`[print]`: `msg_toString` (HvMessage.c:160-200) and the print hooks of the OWL, Daisy and DPF targets, byte by byte.

`%g` is a parameter `g` (the C library's text of a float); `int` is unbounded (the texts together must stay below 2^31
bytes).  `0x%X` is `hexText`.
-/
namespace Verif.Print
open Mem Msg

def bangText : List Byte := [98, 97, 110, 103]

/-- a digit of `%X` -/
def hexDigit (d : Nat) : Byte := if d < 10 then BitVec.ofNat 8 (48 + d) else BitVec.ofNat 8 (55 + d)

/-- `%X`: the digits of a number, the most significant first, no leading zeros -/
def hexDigits : Nat → Nat → List Byte
  | 0, _ => []
  | k + 1, n => if n < 16 then [hexDigit n] else hexDigits k (n / 16) ++ [hexDigit (n % 16)]

/-- `0x%X` -/
def hexText (h : BitVec 32) : List Byte := 48 :: 120 :: hexDigits 8 h.toNat

/-- the text that the format of line 170-173 and 189-192 gives for element `i`; an element of another type has no
text and its length is read uninitialised -/
def elemText (fuel : Nat) (g : BitVec 32 → List Byte) (M : Mem) (m : Nat) (i : Nat) : R (List Byte) := do
  let ty ← getType M m (i : Int)
  if ty = tBang then .ok bangText
  else if ty = tFloat then do .ok (g (← getFloat M m (i : Int)))
  else if ty = tSymbol then do
    let s ← getSymbol M m (i : Int)
    .ok (chars M s (← strlenR fuel M s))
  else if ty = tHash then do .ok (hexText (← getHash fuel M m (i : Int)))
  else .error .ub

/-- `snprintf(dst, n, …)` with result `text`: at most `n - 1` bytes and a terminator -/
def snprintf (M : Mem) (dst n : Nat) (text : List Byte) : Mem := fun x =>
  if dst ≤ x ∧ x < dst + min (n - 1) text.length then text.getD (x - dst) 0
  else if x = dst + min (n - 1) text.length ∧ 0 < n then 0 else M x

/-- first loop, HvMessage.c:167-177: the lengths -/
def lens (fuel : Nat) (g : BitVec 32 → List Byte) (M : Mem) (m : Nat) : Nat → Nat → R (List Nat)
  | _, 0 => .ok []
  | i, k + 1 => do
    let t ← elemText fuel g M m i
    .ok ((t.length + 1) :: (← lens fuel g M m (i + 1) k))

/-- second loop, HvMessage.c:186-197; `len` are the remaining lengths -/
def texts (fuel : Nat) (g : BitVec 32 → List Byte) (m buf : Nat) : Nat → List Nat → Nat → Mem → R Mem
  | _, [], _, M => .ok M
  | i, l :: ls, pos, M => do
    let t ← elemText fuel g M m i
    let M := snprintf M (buf + pos) l t
    let pos := pos + l
    texts fuel g m buf (i + 1) ls pos (wr M (buf + pos - 1) 1 32)

/-- `msg_toString`, HvMessage.c:160-200; `buf` is what `hv_malloc` gave.  The memory and the number of bytes asked
for. -/
def toString (fuel : Nat) (g : BitVec 32 → List Byte) (M : Mem) (m buf : Nat) : R (Mem × Nat) := do
  assert (0 < numElements M m)
  let ls ← lens fuel g M m 0 (numElements M m)
  let size := ls.sum
  assert (0 < size)
  let M ← texts fuel g m buf 0 ls 0 M
  .ok (wr M (buf + size - 1) 1 0, size)

/-- `strnlen(p, k)` -/
def strnlen (M : Mem) (p : Nat) : Nat → Nat
  | 0 => 0
  | k + 1 => if M p = 0 then 0 else strnlen M (p + 1) k + 1

/-- `stpncpy(dst, src, n)` / `strncpy(dst, src, n)`: `n` bytes, filled up with zeros after the end of the text; the end
of the text (`stpncpy`) is `dst + strnlen(src, n)` -/
def strncpyN (M : Mem) (dst src n : Nat) : Mem := fun x =>
  if dst ≤ x ∧ x < dst + n then (if x - dst < strnlen M src n then M (src + (x - dst)) else 0) else M x

/-- `owlPrintHook`, c2owl/templates/HeavyOwl.hpp:60-68, and `printHook`, c2daisy/templates/HeavyDaisy.cpp:509-519:
the memory when `debugMessage(buf)` or `event_log.PushBack(buf)` is called -/
def owlPrint (M : Mem) (buf label msg : Nat) : Mem :=
  let len := strnlen M label 48
  let M := strncpyN M buf label len
  let dst := buf + strnlen M label len
  let M := wr (wr M dst 1 32) (dst + 1) 1 0
  let dst := dst + 1
  strncpyN M dst msg (63 - len)

/-- `hvPrintHookFunc`, c2dpf/templates/HeavyDPF.cpp:70-79: the memory when `printf` is called; `strncpy` and `strcpy`
return the start of the text, not its end -/
def dpfPrint (M : Mem) (buf label msg : Nat) : Mem :=
  let len := strnlen M label 48
  let M := strncpyN M buf label len
  let dst := buf
  let M := wr (wr M dst 1 32) (dst + 1) 1 0
  let dst := dst
  strncpyN M dst msg (63 - len)

end Verif.Print
