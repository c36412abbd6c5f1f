import Verif.Flt
import Verif.Message
/-!
Model of the tables of `hvcc/generators/ir2c/static/HvTable.{h,c}` and of the objects that access them:
`HvControlTabread.c`, `HvControlTabwrite.c`, `HvSignalTabread.{h,c}`, `HvSignalTabwrite.{h,c}`.

`k` is the logarithm of the number of SIMD lanes: `HV_N_SIMD = 2^k`, with `k = 0` (none), `2` (SSE, NEON), `3` (AVX)
(HvUtils.h:73-124).  A buffer is a list of samples: its length is what was really allocated, so an access
beyond it is undefined behaviour.  `hv_assert` failures are a separate outcome.  Samples are of any type with a zero.
-/
namespace Verif.Tab
open Verif.Msg (R Err assert)

variable {α : Type} [Zero α]

/-- `(n + HV_N_SIMD_MASK) & ~HV_N_SIMD_MASK` in 32 bits, HvTable.c:23, 36, 61 -/
def up (k n : Nat) : Nat :=
  ((BitVec.ofNat 32 n + BitVec.ofNat 32 (2 ^ k - 1)) &&& ~~~ BitVec.ofNat 32 (2 ^ k - 1)).toNat

/-- `h & ~HV_N_SIMD_MASK`, HvSignalTabread.c:48 -/
def alignDown (k n : Nat) : Nat := (BitVec.ofNat 32 n &&& ~~~ BitVec.ofNat 32 (2 ^ k - 1)).toNat

/-- `HvTable`, HvTable.h:27-42.  `buf` is the allocated memory; `owned`: it came from `hv_malloc`. -/
structure Table (α : Type) where
  buf : List α
  length : Nat
  size : Nat
  allocated : Nat
  head : Nat
  owned : Bool := true
  deriving DecidableEq, Repr

/-- `hv_malloc` of `n` samples: arbitrary contents -/
def malloc (junk : Nat → α) (n : Nat) : List α := (List.range n).map junk
/-- `hv_realloc` to `n` samples: the common part is kept, the rest is arbitrary -/
def realloc (junk : Nat → α) (b : List α) (n : Nat) : List α :=
  b.take n ++ (List.range (n - b.length)).map junk
/-- `hv_memclear(b + o, n)` (in samples) -/
def clearRange (b : List α) (o n : Nat) : R (List α) :=
  if o + n ≤ b.length then .ok (b.take o ++ List.replicate n 0 ++ b.drop (o + n)) else .error .ub
/-- `hv_memcpy(dst, src, n)` (in samples) -/
def copyInto (dst src : List α) (n : Nat) : R (List α) :=
  if n ≤ dst.length ∧ n ≤ src.length then .ok (src.take n ++ dst.drop n) else .error .ub

/-- `hTable_init`, HvTable.c:20-32 -/
def init (k : Nat) (junk : Nat → α) (length : Nat) : R (Table α) := do
  let size := up k length
  let allocated := (size + 2 ^ k) % 2 ^ 32
  let b ← clearRange (malloc junk allocated) 0 allocated
  .ok { buf := b, length := length, size := size, allocated := allocated, head := 0 }

/-- `hTable_initWithData`, HvTable.c:34-45.  Only `size` samples are allocated although `allocated` says
`size + HV_N_SIMD` (finding F8). -/
def initWithData (k : Nat) (junk : Nat → α) (data : List α) : R (Table α) := do
  let size := up k data.length
  let allocated := (size + 2 ^ k) % 2 ^ 32
  let b ← clearRange (malloc junk size) 0 size
  let b ← copyInto b data data.length
  .ok { buf := b, length := data.length, size := size, allocated := allocated, head := 0 }

/-- `hTable_initWithFinalData`, HvTable.c:47-54 -/
def initWithFinalData (data : List α) : Table α :=
  { buf := data, length := data.length, size := data.length, allocated := data.length, head := 0, owned := false }

/-- what the memory allocator does during one `hTable_resize` -/
structure Alloc (α : Type) where
  junk : Nat → α
  aligned : Bool
  junk' : Nat → α

/-- the buffer after the reallocation in `hTable_resize`, HvTable.c:68-91, given the old size, the new size and the
new allocation (in samples) and the byte counts -/
def resizeBuf (A : Alloc α) (buf : List α) (size newSize newAllocated oldSizeBytes newAllocatedBytes : Nat) :
    R (List α) :=
  let b := realloc A.junk buf (newAllocatedBytes / 4)
  if A.aligned then
    if newSize > size then clearRange b size ((newAllocated + 2 ^ 32 - size) % 2 ^ 32) else .ok b
  else
    let c := malloc A.junk' (newAllocatedBytes / 4)
    if newAllocatedBytes > oldSizeBytes then do
      let c ← copyInto c b (oldSizeBytes / 4)
      clearRange c (oldSizeBytes / 4) ((newAllocatedBytes - oldSizeBytes) / 4)
    else copyInto c b (newAllocatedBytes / 4)

/-- `hTable_resize`, HvTable.c:60-97 (the return value is not used by any caller and not modelled) -/
def resize (k : Nat) (A : Alloc α) (o : Table α) (newLength : Nat) : R (Table α) :=
  let newSize := up k newLength
  if newSize = o.size then .ok o
  else if o.owned = false then .error .ub
  else do
    let newAllocated := (newSize + 2 ^ k) % 2 ^ 32
    let b ← resizeBuf A o.buf o.size newSize newAllocated (o.size * 4 % 2 ^ 32) (newAllocated * 4 % 2 ^ 32)
    .ok { o with buf := b, length := newLength, size := newSize, allocated := newAllocated }

/-- `hTable_onMessage` with `mirror`, HvTable.c:111-113: the first `HV_N_SIMD` samples are copied behind the table -/
def mirror (k : Nat) (o : Table α) : R (Table α) :=
  if 2 ^ k ≤ o.buf.length ∧ o.size + 2 ^ k ≤ o.buf.length then
    .ok { o with buf := o.buf.take o.size ++ o.buf.take (2 ^ k) ++ o.buf.drop (o.size + 2 ^ k) }
  else .error .ub

/-- `hTable_onMessage` with `resize x`, HvTable.c:101-109; the result is the table and the reported size, if a message
is sent.  `(int) ceil(x)` is undefined when it does not fit: then `other`. -/
def onResizeMessage (k : Nat) (A : Alloc α) (other : Nat) (o : Table α) (x : Flt) : R (Table α × Option Nat) :=
  if x.geZero then do
    let n := match x with
      | .fin q => if q.ceil < 2 ^ 31 then q.ceil.toNat else other % 2 ^ 32
      | _ => other % 2 ^ 32
    let o ← resize k A o n
    .ok (o, some o.size)
  else .ok (o, none)

/-- read of one sample -/
def readAt (o : Table α) (i : Nat) : R α :=
  match o.buf[i]? with
  | some v => .ok v
  | none => .error .ub
/-- write of one sample -/
def writeAt (o : Table α) (i : Nat) (v : α) : R (Table α) :=
  if i < o.buf.length then .ok { o with buf := o.buf.set i v } else .error .ub
/-- vector load of `n` samples -/
def loadN (o : Table α) (i n : Nat) : R (List α) :=
  if i + n ≤ o.buf.length then .ok ((o.buf.drop i).take n) else .error .ub
/-- vector store -/
def storeN (o : Table α) (i : Nat) (vs : List α) : R (Table α) :=
  if i + vs.length ≤ o.buf.length then
    .ok { o with buf := o.buf.take i ++ vs ++ o.buf.drop (i + vs.length) }
  else .error .ub

/-! ## Control objects -/

/-- messages as far as the table objects look at them: `hash t` is a hash or symbol naming table `t`
(`none`: no such table, `hv_table_get` gives `NULL`, HeavyContext.cpp:225-228, Heavy_NAME.cpp `getTableForHash`) -/
inductive Msg
  | bang
  | float (f : Flt)
  | stop
  | clear
  | table (t : Option Nat)
  | other
  deriving DecidableEq, Repr

/-- `ControlTabread`; the table is a pointer (index or `NULL`) -/
structure CTabread where
  table : Option Nat
  deriving DecidableEq, Repr

/-- `cTabread_onMessage`, HvControlTabread.c:24-46: the new object and the sample that is sent, if any -/
def cTabread (other : Nat) (ts : List (Table α)) (o : CTabread) (letIn : Nat) (m : Msg) :
    R (CTabread × Option α) :=
  match letIn, m with
  | 0, .float f =>
    match o.table with
    | some t =>
      if f.geZero then
        match ts[t]? with
        | none => .error .ub
        | some T =>
          let x := f.toU32 other
          if x < T.size then do
            let v ← readAt T x
            .ok (o, some v)
          else .ok (o, none)
      else .ok (o, none)
    | none => .ok (o, none)
  | 1, .table t => .ok ({ o with table := t }, none)
  | _, _ => .ok (o, none)

/-- `ControlTabwrite` -/
structure CTabwrite where
  table : Option Nat
  x : Nat
  deriving DecidableEq, Repr

/-- `cTabwrite_onMessage`, HvControlTabwrite.c:25-54.  `val` converts a float message to a sample. -/
def cTabwrite (other : Nat) (val : Flt → α) (ts : List (Table α)) (o : CTabwrite) (letIn : Nat) (m : Msg) :
    R (CTabwrite × List (Table α)) :=
  match letIn, m with
  | 0, .float f =>
    match o.table with
    | some t =>
      match ts[t]? with
      | none => .error .ub
      | some T => do
        let T' ← writeAt T o.x (val f)
        .ok (o, ts.set t T')
    | none => .ok (o, ts)
  | 1, .float f =>
    match o.table with
    | some t =>
      match ts[t]? with
      | none => .error .ub
      | some T =>
        if f.geZero then
          if f.toU32 other < T.size then .ok ({ o with x := f.toU32 other }, ts) else .ok (o, ts)
        else .ok (o, ts)
    | none => .ok (o, ts)
  | 2, .table t => .ok ({ o with table := t }, ts)
  | _, _ => .ok (o, ts)

/-! ## Signal objects -/

/-- `SignalTabread`, HvSignalTabread.h:24-32 (`last` is the field `end`) -/
structure STabread where
  table : Option Nat
  head : Nat
  last : Nat
  aligned : Bool
  playing : Bool
  deriving DecidableEq, Repr

/-- a table pointer that is dereferenced -/
def deref (ts : List (Table α)) (t : Option Nat) : R (Table α) :=
  match t with
  | none => .error .ub
  | some t => match ts[t]? with
    | none => .error .ub
    | some T => .ok T

/-- `sTabread_init`, HvSignalTabread.c:19-26 -/
def sTabreadInit (T : Table α) (t : Nat) (aligned : Bool) : STabread :=
  { table := some t, head := 0, last := T.size, aligned := aligned, playing := false }

/-- `sTabread_onMessage`, HvSignalTabread.c:28-84 (the head position sent on outlet 1 is not modelled) -/
def sTabreadMsg (k other : Nat) (ts : List (Table α)) (o : STabread) (letIn : Nat) (m : Msg) : R STabread :=
  match letIn with
  | 0 =>
    if o.table = none then .ok o else do
    let T ← deref ts o.table
    let o := { o with last := T.size }
    match m with
    | .bang => .ok { o with head := 0, playing := true }
    | .float f =>
      let h := f.abs.toU32 other
      let h := if f.ltZero then (T.size + 2 ^ 32 - h) % 2 ^ 32 else h
      .ok { o with head := if o.aligned then alignDown k h else h, playing := true }
    | .stop => .ok { o with head := 0, playing := false }
    | _ => .ok o
  | 1 =>
    match m with
    | .table t => do
      let T ← deref ts t
      .ok { o with table := t, head := 0, last := T.size }
    | _ => .ok o
  | 2 =>
    match o.table, m with
    | some _, .float f => .ok { o with last := (o.head + f.abs.toU32 other) % 2 ^ 32 }
    | _, _ => .ok o
  | _ => .ok o

/-- `__hv_tabread_stoppable_f`, HvSignalTabread.h:119-148: the new state, the output and whether the bang
"finished" is sent -/
def sTabreadStoppable (k : Nat) (ts : List (Table α)) (o : STabread) : R (STabread × List α × Bool) := do
  let T ← deref ts o.table
  let o := if o.head ≥ T.allocated then { o with playing := false } else o
  if !o.playing then .ok (o, List.replicate (2 ^ k) 0, false)
  else if o.last > o.head then do
    let v ← loadN T o.head (2 ^ k)
    .ok ({ o with head := (o.head + 2 ^ k) % 2 ^ 32 }, v, false)
  else .ok ({ o with playing := false }, List.replicate (2 ^ k) 0, true)

/-- `__hv_tabread_f` and `__hv_tabreadu_f`, HvSignalTabread.h:88-116 (the alignment of the load is not modelled) -/
def sTabreadF (k : Nat) (ts : List (Table α)) (o : STabread) : R (STabread × List α) := do
  let T ← deref ts o.table
  assert ((o.head + 2 ^ k) % 2 ^ 32 ≤ T.allocated)
  let v ← loadN T o.head (2 ^ k)
  .ok ({ o with head := (o.head + 2 ^ k) % 2 ^ 32 }, v)

/-- `__hv_tabread_if`, HvSignalTabread.h:44-81: random access, one index per lane -/
def sTabreadIf (ts : List (Table α)) (o : STabread) (is : List Int) : R (List α) := do
  let T ← deref ts o.table
  let _ ← is.mapM fun (i : Int) => assert (i ≥ 0 ∧ i < (T.allocated : Int))
  is.mapM fun i => readAt T i.toNat

/-- `SignalTabwrite`, HvSignalTabwrite.h:28-31 -/
structure STabwrite where
  table : Option Nat
  head : Nat
  deriving DecidableEq, Repr

/-- `HV_TABWRITE_STOPPED`, HvSignalTabwrite.h:26 -/
def stopped : Nat := 2 ^ 32 - 1

/-- `sTabwrite_onMessage`, HvSignalTabwrite.c:25-57 -/
def sTabwriteMsg (other : Nat) (ts : List (Table α)) (o : STabwrite) (letIn : Nat) (m : Msg) :
    R (STabwrite × List (Table α)) :=
  match letIn, m with
  | 1, .bang => .ok ({ o with head := 0 }, ts)
  | 1, .float f => .ok ({ o with head := if f.geZero then f.toU32 other else stopped }, ts)
  | 1, .stop => .ok ({ o with head := stopped }, ts)
  | 1, .clear => do
    let T ← deref ts o.table
    let b ← clearRange T.buf 0 T.allocated
    .ok (o, ts.set (o.table.getD 0) { T with buf := b })
  | 2, .table t => .ok ({ o with table := t }, ts)
  | _, _ => .ok (o, ts)

/-- `__hv_tabwrite_stoppable_f`, HvSignalTabwrite.h:78-92 -/
def sTabwriteStoppable (ts : List (Table α)) (o : STabwrite) (vs : List α) : R (STabwrite × List (Table α)) :=
  if o.head = stopped then .ok (o, ts) else do
  let T ← deref ts o.table
  let T' ← storeN T o.head vs
  .ok ({ o with head := (o.head + vs.length) % 2 ^ 32 }, ts.set (o.table.getD 0) T')

/-- `__hv_tabwrite_f`, HvSignalTabwrite.h:39-55 -/
def sTabwriteF (ts : List (Table α)) (o : STabwrite) (vs : List α) : R (STabwrite × List (Table α)) := do
  let T ← deref ts o.table
  assert ((o.head + vs.length) % 2 ^ 32 ≤ T.size)
  let T' ← storeN T o.head vs
  let head := (o.head + vs.length) % 2 ^ 32
  .ok ({ o with head := head }, ts.set (o.table.getD 0) { T' with head := head })

end Verif.Tab
