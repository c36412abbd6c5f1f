import Verif.Message
/-!
Byte-level model of `hvcc/generators/ir2c/static/HvMessagePool.c`.

The free list of each chunk size is a list of addresses, most recently pushed first.  The list nodes
(`MessageListNode`, recycled through `ml->pool`) are not represented: they are separate `malloc` allocations
that hold one chunk address each.
-/
namespace Verif.Pool
open Mem Msg

/-- HvMessagePool.h:25-29 -/
def numLists : Nat := 4
/-- HvMessagePool.c:21 -/
def blockSize : Nat := 512

/-- `hv_min_max_log2`, HvUtils.h:264-276: `32 - __builtin_clz(x-1)`, undefined for `x = 1`; the `HV_WIN` variant uses
`_BitScanReverse(x) + 1`. -/
def minMaxLog2 (win : Bool) (x : Nat) : R Nat :=
  if win then (if x = 0 then .error .ub else .ok (Nat.log2 x + 1))
  else if x - 1 = 0 then .error .ub else .ok (Nat.log2 (x - 1) + 1)

/-- `mp_messagelistIndexForSize`, HvMessagePool.c:80-82 -/
def listIndex (win : Bool) (b : Nat) : R Nat := do .ok ((← minMaxLog2 win b) - 5)

/-- `HvMessagePool`, HvMessagePool.h:40-46; `lists i` is the list of free chunks of `32 << i` bytes -/
structure Pool where
  buffer : Nat
  bufferSize : Nat
  bufferIndex : Nat
  lists : Nat → List Nat

/-- replace list `i` -/
def Pool.setList (P : Pool) (i : Nat) (l : List Nat) : Pool :=
  { P with lists := fun j => if j = i then l else P.lists j }

/-- `mp_init`, HvMessagePool.c:84-97; `buffer` is the address returned by `malloc` -/
def init (buffer numKB : Nat) : Pool :=
  { buffer := buffer, bufferSize := numKB * 1024, bufferIndex := 0, lists := fun _ => [] }

/-- `mp_freeMessage`, HvMessagePool.c:106-113; a list index beyond the array is undefined behaviour -/
def freeMessage (win : Bool) (M : Mem) (P : Pool) (m : Nat) : R (Mem × Pool) := do
  let b := getSize M m
  let i ← listIndex win b
  if i < numLists then
    let chunkSize := 32 <<< i
    .ok (memclear M m chunkSize, P.setList i (m :: P.lists i))
  else .error .ub

/-- the `for` loop HvMessagePool.c:137-139: the chunks from `j` below `j + k * chunk`, pushed one after the other
onto the list `l` -/
def pushChunks (buffer chunk : Nat) : Nat → Nat → List Nat → List Nat
  | 0, _, l => l
  | k + 1, j, l => pushChunks buffer chunk k (j + chunk) ((buffer + j) :: l)

/-- `ml_pop` of list `i` followed by `msg_copyToBuffer`, HvMessagePool.c:127-129 and 141-143 -/
def popCopy (fuel : Nat) (M : Mem) (P : Pool) (m i chunkSize : Nat) : R (Mem × Pool × Nat) :=
  match P.lists i with
  | [] => .error .ub
  | buf :: rest => do .ok (← copyToBuffer fuel M m buf chunkSize, P.setList i rest, buf)

/-- `mp_addMessage`, HvMessagePool.c:115-145; the loop runs `512 / chunkSize` times because the chunk size
divides the block size -/
def addMessage (win : Bool) (fuel : Nat) (M : Mem) (P : Pool) (m : Nat) : R (Mem × Pool × Nat) := do
  let b := getSize M m
  let i ← listIndex win b
  assert (i < numLists)
  let chunkSize := 32 <<< i
  if P.lists i ≠ [] then popCopy fuel M P m i chunkSize
  else
    let newIndex := P.bufferIndex + blockSize
    assert (newIndex ≤ P.bufferSize)
    let P := P.setList i (pushChunks P.buffer chunkSize (blockSize / chunkSize) P.bufferIndex (P.lists i))
    popCopy fuel M { P with bufferIndex := newIndex } m i chunkSize

end Verif.Pool
