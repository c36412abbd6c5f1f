import Verif.Simd
import Verif.Message
import Mathlib.Algebra.Field.Defs
import Mathlib.Algebra.BigOperators.Group.List.Basic
/-!
Model of the envelope follower `env~` (`__env~f`): `hvcc/generators/ir2c/static/HvSignalEnvelope.c`.

Samples are elements of a ring (a field where weights are computed): rounding is not modelled.  A buffer is the list of
the samples really allocated; an access beyond it is undefined behaviour.
-/
namespace Verif.Env
open Verif.Simd (V)
open Verif.Msg (R Err)

variable {α : Type}

/-- `ceilToNearestBlock`, HvSignalEnvelope.c:23-25, for `x ≥ 0`.  The C code computes it in `float`, which is exact for
`x ≤ 2^24` because `n` is a power of two. -/
def ceilToNearestBlock (x n : Nat) : Nat := (x + n - 1) / n * n

/-- `SignalEnvelope`, HvSignalEnvelope.h:26-32 -/
structure Env (α : Type) where
  windowSize : Nat
  period : Nat
  num : Nat
  weights : List α
  buffer : List α

/-- `windowSize` as set by `sEnv_init`, HvSignalEnvelope.c:30 -/
def windowOf (N : Nat) (windowSize : Int) : Nat :=
  if windowSize ≤ N then N else ceilToNearestBlock windowSize.toNat N

/-- `period` as set by `sEnv_init`, HvSignalEnvelope.c:31 -/
def periodOf (N : Nat) (w : Nat) (period : Int) : Nat :=
  if period ≤ N then N else if period > w then w else ceilToNearestBlock period.toNat N

/-- the Hanning window before normalisation, HvSignalEnvelope.c:48; `cosf` and `M_PI` are parameters -/
def hann [Field α] (cos : α → α) (pi : α) (w i : Nat) : α := (1 / 2) * (1 - cos (2 * pi * (i : α) / ((w : α) - 1)))

/-- the weights, HvSignalEnvelope.c:46-55 -/
def weightsOf [Field α] (cos : α → α) (pi : α) (w : Nat) : List α :=
  let ws := (List.range w).map (hann cos pi w)
  let sum := ws.sum
  ws.map (· / sum)

/-- `sEnv_init`, HvSignalEnvelope.c:27-58.  The buffer is not initialised: `junk` is what the memory held. -/
def init [Field α] (cos : α → α) (pi : α) (N : Nat) (junk : Nat → α) (windowSize period : Int) : Env α :=
  let w := windowOf N windowSize
  { windowSize := w, period := periodOf N w period, num := 0, weights := weightsOf cos pi w
    buffer := (List.range (2 * w)).map junk }

/-- a vector load from a buffer -/
def load (N : Nat) (b : List α) (i : Nat) : R (V N α) :=
  if h : i + N ≤ b.length then .ok fun j => b[i + j.val]'(by have := j.isLt; omega) else .error .ub

/-- `_mm_stream_ps`, `vst1q_f32`, HvSignalEnvelope.c:84, 102, 122, 138 -/
def store {N : Nat} (b : List α) (i : Nat) (v : V N α) : R (List α) :=
  if i + N ≤ b.length then .ok (b.take i ++ List.ofFn v ++ b.drop (i + N)) else .error .ub

/-- the loop over the window, from its end, HvSignalEnvelope.c:88-96, 106-114, 126-134; `r` blocks are left -/
def lanes {N : Nat} [Mul α] [Add α] (weights buffer : List α) : Nat → V N α → R (V N α)
  | 0, sum => .ok sum
  | r + 1, sum =>
    match load N buffer (r * N), load N weights (r * N) with
    | .ok x, .ok h => lanes weights buffer r (Simd.add sum (Simd.mul x h))
    | _, _ => .error .ub

/-- `_mm_hadd_ps(a, b)`: sums of neighbours -/
def hadd4 [Add α] (a b : V 4 α) : V 4 α := ![a 0 + a 1, a 2 + a 3, b 0 + b 1, b 2 + b 3]
/-- `_mm256_hadd_ps(a, b)`: the same in both halves -/
def hadd8 [Add α] (a b : V 8 α) : V 8 α :=
  ![a 0 + a 1, a 2 + a 3, b 0 + b 1, b 2 + b 3, a 4 + a 5, a 6 + a 7, b 4 + b 5, b 6 + b 7]

/-- the horizontal sum, AVX, HvSignalEnvelope.c:97-99 -/
def hsumAvx [Add α] (sum : V 8 α) : α :=
  let sum := hadd8 sum sum
  let sum := hadd8 sum sum
  sum 0 + sum 4
/-- the horizontal sum, SSE, HvSignalEnvelope.c:115-119 -/
def hsumSse [Add α] (sum : V 4 α) : α :=
  let sum := hadd4 sum sum
  let sum := hadd4 sum sum
  sum 0
/-- the horizontal sum, NEON, HvSignalEnvelope.c:135 -/
def hsumNeon [Add α] (sum : V 4 α) : α := sum 0 + sum 1 + sum 2 + sum 3

/-- the weighted sum, SIMD code, for the horizontal sum of the back end; the window is a whole number of vectors -/
def totalVec {N : Nat} [Zero α] [Mul α] [Add α] (hsum : V N α → α) (weights buffer : List α) (w : Nat) : R α :=
  match lanes (N := N) weights buffer (w / N) Simd.zero with
  | .ok sum => .ok (hsum sum)
  | .error e => .error e

/-- the weighted sum, HV_SIMD_NONE, HvSignalEnvelope.c:142-145 -/
def totalNone [Zero α] [Mul α] [Add α] (weights buffer : List α) : Nat → R α
  | 0 => .ok 0
  | i + 1 =>
    match totalNone weights buffer i, weights[i]?, buffer[i]? with
    | .ok sum, some h, some x => .ok (sum + h * x)
    | _, _, _ => .error .ub

/-- `hv_memcpy(b, b + p, n)`, HvSignalEnvelope.c:77 (in samples): undefined if the two ranges overlap, unless the platform's
`memcpy` copies upwards (`fwd`) -/
def shift (fwd : Bool) (b : List α) (p n : Nat) : R (List α) :=
  if p + n ≤ b.length ∧ (fwd = true ∨ n ≤ p) then .ok ((b.drop p).take n ++ b.drop n) else .error .ub

/-- `sEnv_process`, HvSignalEnvelope.c:81-149, with `sEnv_sendMessage`, HvSignalEnvelope.c:65-79, at the sample number `now`.
`total` is the weighted sum of the back end, `level` the conversion to decibels of line 69.  The result is the new state and
the message scheduled, if any: its time and its value. -/
def process {N : Nat} [Mul α] (total : List α → List α → Nat → R α) (level : α → α) (fwd : Bool) (now : Nat) (o : Env α)
    (bIn : V N α) : R (Env α × Option (Nat × α)) :=
  match store o.buffer o.num (Simd.mul bIn bIn) with
  | .error e => .error e
  | .ok b =>
    let num := o.num + N
    if num ≥ o.windowSize then
      match total o.weights b o.windowSize with
      | .error e => .error e
      | .ok rms =>
        match shift fwd b o.period (num - o.period) with
        | .error e => .error e
        | .ok b => .ok ({ o with num := num - o.period, buffer := b }, some (now + N, level rms))
    else .ok ({ o with num := num, buffer := b }, none)

/-- `B` blocks of the signal `x`, the first of them at sample number `t0`: final state and all messages -/
def run {N : Nat} [Mul α] (total : List α → List α → Nat → R α) (level : α → α) (fwd : Bool) (t0 : Nat) (x : Nat → α)
    (o : Env α) : Nat → R (Env α × List (Nat × α))
  | 0 => .ok (o, [])
  | b + 1 =>
    match run (N := N) total level fwd t0 x o b with
    | .error e => .error e
    | .ok (o, ms) =>
      match process total level fwd (t0 + b * N) o (Simd.block N x b) with
      | .error e => .error e
      | .ok (o, m) => .ok (o, ms ++ m.toList)

end Verif.Env
