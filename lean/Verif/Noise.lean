import Verif.Simd
import Mathlib.Data.Rat.Defs
/-!
`hvcc/interpreters/pd2hv/libs/pd/noise~.pd`: a variable of integers (`var x`, read by `__varread~i`, written back by `vario x`,
that is `__varwrite~i`), multiplied by 16807 in every block (`__mul~i`), converted to float (`__cast~if`) and scaled by
4.65661e-10.  hvcc/core/hv2ir/HLangVar.py:56-69 makes `__var~i` and `__varread~i` of `var`, HLangVario.py:38-40 `__varwrite~i` of
`vario`.  The order of the calls is forced by the connections: read, multiply, then write and convert.
-/
namespace Verif.Noise
open Verif.Simd

/-- `sVari_update(o, k, 1, false)`, HvSignalVar.c:53-66 (`step` is 1 and there are two elements: the message box is `$1 1`): lane `i`
gets `k + i`.  `k` is the number of the message converted to `int`.  In the vector registers the sums wrap. -/
def seed (N : Nat) (k : Int) : V N (BitVec 32) := fun i => BitVec.ofInt 32 (k + i.val)

/-- `__hv_mul_i`, HvMath.h:439-451, with `__hv_var_k_i` of 16807 in all lanes (SignalVar.py:101-110): the low halves of the products.
In the scalar build this is a product of `int`s, whose overflow is undefined in C; here it wraps. -/
def step {N : Nat} (v : V N (BitVec 32)) : V N (BitVec 32) := fun i => v i * 16807#32

/-- a block: a seed from the inlet or from `loadbang` and `random` before it, then the signal objects; the state and the words that are
converted -/
def noiseBlock {N : Nat} (v : V N (BitVec 32)) (m : Option Int) : V N (BitVec 32) × V N (BitVec 32) :=
  let v := match m with | some k => seed N k | none => v
  let x := step v
  (x, x)

/-- `__hv_cast_if`, HvMath.h:454-464, and `__mul~f` with 4.65661e-10, without rounding -/
def sample (x : BitVec 32) : Rat := (x.toInt : Rat) * 4.65661e-10

/-- the words of block `b`; `sVari_init(k = 0, step = 0)` leaves zeros, HvSignalVar.c:68-71 -/
def words (N : Nat) (msgs : Nat → Option Int) (b : Nat) : V N (BitVec 32) := outAt noiseBlock zero msgs b

/-- the output: lane `i` of block `b` -/
def out (N : Nat) (msgs : Nat → Option Int) (b : Nat) (i : Fin N) : Rat := sample (words N msgs b i)

end Verif.Noise
