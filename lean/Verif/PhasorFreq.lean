import Verif.Phasor
import Mathlib.Data.Rat.Floor
/-!
`hvcc/generators/ir2c/static/HvSignalPhasor.{h,c}`: how phasor~ makes steps and phases from numbers.  Exact arithmetic; the
conversions to integers are those of C and of the vector instructions.
-/
namespace Verif.Phasor
open Verif.Simd

/-- conversion of a number to an integer in C: towards zero -/
def cut (q : ℚ) : ℤ := if q < 0 then ⌈q⌉ else ⌊q⌋

/-- `while (p < 0.0f) p += 1.0f`, HvSignalPhasor.c:107, 131; the first argument bounds the rounds -/
def loopUp : Nat → ℚ → ℚ
  | 0, p => p
  | k + 1, p => if p < 0 then loopUp k (p + 1) else p

/-- `while (p > 1.0f) p -= 1.0f`, HvSignalPhasor.c:108, 132 -/
def loopDown : Nat → ℚ → ℚ
  | 0, p => p
  | k + 1, p => if 1 < p then loopDown k (p - 1) else p

/-- both loops; the bounds are enough (`wrapPhase_done`) -/
def wrapPhase (p : ℚ) : ℚ := loopDown ⌈p⌉.toNat (loopUp ⌈-p⌉.toNat p)

/-- `(hv_uint32_t) (p * HV_PHASOR_2_32)`, HvSignalPhasor.c:112, 136; nothing if the number does not fit: the conversion is
undefined then -/
def phaseWord (p : ℚ) : Option (BitVec 32) :=
  let t := cut (wrapPhase p * 4294967296)
  if 0 ≤ t ∧ t < 4294967296 then some (BitVec.ofInt 32 t) else none

/-- `(hv_int32_t) (f*(HV_PHASOR_2_32/r))`, HvSignalPhasor.c:66, 71, 75; nothing if the number does not fit -/
def stepWord (r f : ℚ) : Option (BitVec 32) :=
  let t := cut (f * (4294967296 / r))
  if -2147483648 ≤ t ∧ t < 2147483648 then some (BitVec.ofInt 32 t) else none

/-- a message to phasor~: a frequency at the left inlet or a phase at the right one -/
inductive FMsg where
  | freq (f : ℚ)
  | phase (p : ℚ)

/-- `sPhasor_k_onMessage`, HvSignalPhasor.c:124-143: the conversions; where they are undefined the word is arbitrary (here 0) -/
def FMsg.toK (r : ℚ) : FMsg → KMsg
  | .freq f => .freq ((stepWord r f).getD 0)
  | .phase p => .phase ((phaseWord p).getD 0)

/-- to the nearest integer, halves to the even one -/
def rne (x : ℚ) : ℤ :=
  if x - ⌊x⌋ < 1 / 2 then ⌊x⌋ else if 1 / 2 < x - ⌊x⌋ then ⌊x⌋ + 1 else if ⌊x⌋ % 2 = 0 then ⌊x⌋ else ⌊x⌋ + 1

/-- SSE: the step of a sample of the frequency signal, HvSignalPhasor.h:84 with `step.f2sc` of HvSignalPhasor.c:90;
`_mm_cvtps_epi32` rounds to the nearest integer and gives 0x80000000 if that is not an `int` -/
def sseStep (r x : ℚ) : BitVec 32 :=
  let t := rne (x * (4294967296 / r))
  if -2147483648 ≤ t ∧ t < 2147483648 then BitVec.ofInt 32 t else 0x80000000#32

/-- NEON: HvSignalPhasor.h:94; `vcvtq_s32_f32` rounds towards zero and saturates -/
def neonStep (r x : ℚ) : BitVec 32 := BitVec.ofInt 32 (max (-2147483648) (min 2147483647 (cut (x * (4294967296 / r)))))

/-- scalar: HvSignalPhasor.h:104; towards zero, undefined (here 0) if that is not an `int` -/
def scalarStep (r x : ℚ) : BitVec 32 := (stepWord r x).getD 0

end Verif.Phasor
