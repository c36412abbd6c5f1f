import Verif.Simd
import Verif.Table
/-!
Model of the convolution object `conv~` (`__conv~f`): `hvcc/generators/ir2c/static/HvSignalConvolution.c`, made of the
vector instructions of `Verif.Simd` and of the tables of `Verif.Table`.

`2^k` is `HV_N_SIMD`.  A signal-rate vector is a function on its lanes.  Samples are elements of a ring: rounding is not
modelled.  Table sizes are below 2^30, so that the `int` arithmetic of the loops does not overflow: integers are
unbounded here.
-/
namespace Verif.Conv
open Verif.Simd (V)
open Verif.Tab (Table)
open Verif.Msg (R Err assert)

variable {α : Type}

/-- `__hv_load_f(buffer + i)`, HvMath.h:50-60: the lanes of the vector at sample `i` -/
def loadV (N : Nat) (T : Table α) (i : Nat) : R (V N α) :=
  if h : i + N ≤ T.buf.length then .ok fun j => T.buf[i + j.val]'(by have := j.isLt; omega) else .error .ub

/-- `__hv_store_f(buffer + i, v)`, HvMath.h:62-72 -/
def storeV {N : Nat} (T : Table α) (i : Nat) (v : V N α) : R (Table α) :=
  if i + N ≤ T.buf.length then
    .ok { T with buf := T.buf.take i ++ List.ofFn v ++ T.buf.drop (i + N) }
  else .error .ub

/-- `sConv_kernel`, HV_SIMD_NONE, HvSignalConvolution.c:93-94 -/
def kernelNone [Mul α] (bIn _bInPrev bInCoeff : V 1 α) : V 1 α := Simd.mul bIn bInCoeff

/-- `_mm_shuffle_ps(c, c, _MM_SHUFFLE(q,q,q,q))`, `vdupq_lane_f32`: lane `q` in all lanes -/
def dup (c : V 4 α) (q : Fin 4) : V 4 α := Simd.shuffle c c q q q q

/-- the last four lines of the SSE and NEON kernels, HvSignalConvolution.c:72-76, 88-92 -/
def mac [Mul α] [Add α] (c0 c1 c2 c3 m0 m1 m2 m3 : V 4 α) : V 4 α :=
  let a := Simd.mul c0 m0
  let b := Simd.fma c1 m1 a
  let c := Simd.fma c2 m2 b
  Simd.fma c3 m3 c

/-- `sConv_kernel`, HV_SIMD_SSE, HvSignalConvolution.c:61-76 -/
def kernelSse [Mul α] [Add α] (bIn bInPrev bInCoeff : V 4 α) : V 4 α :=
  let m0 := bIn
  let m2 := Simd.shuffle bInPrev bIn 1 0 3 2
  let m1 := Simd.shuffle m2 bIn 2 1 2 1
  let m3 := Simd.shuffle bInPrev m2 2 1 2 1
  mac (dup bInCoeff 0) (dup bInCoeff 1) (dup bInCoeff 2) (dup bInCoeff 3) m0 m1 m2 m3

/-- `sConv_kernel`, HV_SIMD_NEON, HvSignalConvolution.c:77-92 -/
def kernelNeon [Mul α] [Add α] (bIn bInPrev bInCoeff : V 4 α) : V 4 α :=
  let m0 := bIn
  let m1 := Simd.vext bInPrev bIn 0x3
  let m2 := Simd.vext bInPrev bIn 0x2
  let m3 := Simd.vext bInPrev bIn 0x1
  mac (dup bInCoeff 0) (dup bInCoeff 1) (dup bInCoeff 2) (dup bInCoeff 3) m0 m1 m2 m3

/-- `wrap`, HvSignalConvolution.c:100-104 -/
def wrap (i n : Int) : Int := if i < 0 then i + n else if i ≥ n then i - n else i

/-- the body of both loops, HvSignalConvolution.c:126-131, 135-140: the new `x0` and `out` -/
def body {N : Nat} [Add α] (kern : V N α → V N α → V N α → V N α) (inputs coeffs : Table α) (h i : Nat) (x0 out : V N α) :
    R (V N α × V N α) := do
  let x1 ← loadV N inputs h
  let c ← loadV N coeffs i
  .ok (x1, Simd.add (kern x0 x1 c) out)

/-- the first loop, HvSignalConvolution.c:125-132: `for (; h >= 0; i += HV_N_SIMD, h -= HV_N_SIMD)`.  It looks at the
input buffer only, not at the number `n` of coefficients.  Result: `h`, `i`, `x0`, `out`. -/
def loop1 {N : Nat} [NeZero N] [Add α] (kern : V N α → V N α → V N α → V N α) (inputs coeffs : Table α) (h : Int) (i : Nat)
    (x0 out : V N α) : R (Int × Nat × V N α × V N α) :=
  if h < 0 then .ok (h, i, x0, out)
  else
    match body kern inputs coeffs h.toNat i x0 out with
    | .error e => .error e
    | .ok (x1, out) => loop1 kern inputs coeffs (h - N) (i + N) x1 out
termination_by (h + 1).toNat
decreasing_by have := Nat.pos_of_ne_zero (NeZero.ne N); omega

/-- the second loop, HvSignalConvolution.c:134-141: `for (; i < n; i += HV_N_SIMD, h -= HV_N_SIMD)`; a negative `h` is an
access before the buffer -/
def loop2 {N : Nat} [NeZero N] [Add α] (kern : V N α → V N α → V N α → V N α) (inputs coeffs : Table α) (n : Nat) (h : Int)
    (i : Nat) (x0 out : V N α) : R (V N α) :=
  if i ≥ n then .ok out
  else if h < 0 then .error .ub
  else
    match body kern inputs coeffs h.toNat i x0 out with
    | .error e => .error e
    | .ok (x1, out) => loop2 kern inputs coeffs n (h - N) (i + N) x1 out
termination_by n - i
decreasing_by have := Nat.pos_of_ne_zero (NeZero.ne N); omega

/-- the accumulation of one block, HvSignalConvolution.c:119-141, for `n` coefficients, an input buffer of size `m` and
its head -/
def accumulate {N : Nat} [NeZero N] [Zero α] [Add α] (kern : V N α → V N α → V N α → V N α) (inputs coeffs : Table α)
    (n m head : Nat) (bIn : V N α) : R (V N α) := do
  let (h, i, x0, out) ← loop1 kern inputs coeffs (wrap (head - N) m) 0 bIn Simd.zero
  loop2 kern inputs coeffs n (h + m) i x0 out

/-- `__hv_conv_f`, HvSignalConvolution.c:106-147.  `coeffs` is the table that `o->table` points to, `inputs` is
`o->inputs`. -/
def process {N : Nat} [NeZero N] [Zero α] [Add α] (kern : V N α → V N α → V N α → V N α) (coeffs inputs : Table α)
    (bIn : V N α) : R (Table α × V N α) := do
  let n := coeffs.size
  assert (n % N == 0)
  let m := inputs.size
  assert (decide (m ≥ n))
  let head := inputs.head
  let out ← accumulate kern inputs coeffs n m head bIn
  let inputs ← storeV inputs head bIn
  .ok ({ inputs with head := (wrap (head + N) m).toNat }, out)

/-- `sConv_onMessage`, HvSignalConvolution.c:30-55, on the pair (index of `o->table`, `o->inputs`).  The memory allocator
may do what it likes (`A`); `other`: the result of an undefined conversion of a float. -/
def onMessage [Zero α] (k other : Nat) (A : Tab.Alloc α) (ts : List (Table α)) (o : Nat × Table α) (letIn : Nat)
    (m : Tab.Msg) : R (Nat × Table α) :=
  match letIn, m with
  | 1, .table (some t) =>
    match ts[t]? with
    | none => .ok o
    | some T =>
      if o.2.size ≠ T.size then do
        let i ← Tab.resize k A o.2 (min o.2.size T.size)
        .ok (t, i)
      else .ok (t, o.2)
  | 2, .float f => do
    let i ← Tab.resize k A o.2 (f.toU32 other)
    .ok (o.1, i)
  | _, _ => .ok o

/-- `sConv_init`, HvSignalConvolution.c:19-23 -/
def init [Zero α] (k : Nat) (junk : Nat → α) (table size : Nat) : R (Nat × Table α) := do
  let i ← Tab.init k junk size
  .ok (table, i)

/-- the history of one object: block `b` is processed with the coefficients that the table holds then -/
def run {N : Nat} [NeZero N] [Zero α] [Add α] (kern : V N α → V N α → V N α → V N α) (coeffs : Nat → Table α) (x : Nat → α)
    (inputs : Table α) : Nat → R (Table α)
  | 0 => .ok inputs
  | b + 1 =>
    match run kern coeffs x inputs b with
    | .error e => .error e
    | .ok i =>
      match process kern (coeffs b) i (Simd.block N x b) with
      | .error e => .error e
      | .ok (i, _) => .ok i

end Verif.Conv
