import Verif.Simd
import Mathlib.Algebra.Order.Field.Rat
/-!
`hvcc/generators/ir2c/static/HvSignalPhasor.{h,c}`: phasor~ with signal input (`__phasor~f`) and with message input
(`__phasor_k~f`).

The phase is a 32-bit word in the SSE, NEON and scalar code.  The conversion of a frequency to a phase step (a float product
converted to `int`) is not modelled: steps are arbitrary words.  In the AVX code the phase is a float; only its wrapping is
modelled (`avxWrap`).
-/
namespace Verif.Phasor
open Verif.Simd

/-- a vector of words -/
abbrev W := V 4 (BitVec 32)

/-- the value of the bit pattern of a positive normal `float` (exponent field not 0 or 255, sign 0) -/
def value (b : BitVec 32) : Rat :=
  (1 + ((b.toNat % 2 ^ 23 : Nat) : Rat) / 2 ^ 23) * (2 : Rat) ^ (((b.toNat / 2 ^ 23 : Nat) : Int) - 127)

/-- the output for a phase, HvSignalPhasor.h:88-91 (SSE), 98 (NEON), 101-103 (scalar): bits 9-31 of the phase as the mantissa
of a float in [1, 2), minus 1.  The subtraction is exact (the result is a multiple of 2^-23). -/
def output (p : BitVec 32) : Rat := value ((p >>> 9) ||| 0x3F800000#32) - 1

/-! ### signal input -/

/-- `_mm_slli_si128(p, 4 * l)`: `l` lanes up -/
def slli (p : W) (l : Nat) : W := fun i => if h : l ≤ i.val then p ⟨i.val - l, by omega⟩ else 0

/-- `__hv_phasor_f`, HV_SIMD_SSE, HvSignalPhasor.h:83-92; the input is the vector of steps (line 84) -/
def sse (phase : W) (step : W) : W × W :=
  let p := step
  let p : W := fun i => p i + slli p 1 i
  let p : W := fun i => p i + slli p 2 i
  let p : W := fun i => phase i + p i
  (fun _ => p 3, p)

/-- `__hv_phasor_f`, HV_SIMD_NEON, HvSignalPhasor.h:93-99 -/
def neon (phase : W) (step : W) : W × W :=
  let p := step
  let p : W := fun i => p i + vext zero p 3 i
  let p : W := fun i => p i + vext zero p 2 i
  let pp : W := fun i => phase i + p i
  (fun _ => pp 3, pp)

/-- `__hv_phasor_f`, HV_SIMD_NONE, HvSignalPhasor.h:100-105 -/
def none1 (phase : V 1 (BitVec 32)) (step : V 1 (BitVec 32)) : V 1 (BitVec 32) × V 1 (BitVec 32) :=
  (fun i => phase i + step i, phase)

/-- `sPhasor_onMessage`, HvSignalPhasor.c:103-116 and `sPhasor_updatePhase`, 21-35: a phase message sets the phase; `none`
when there was none before the block -/
def setPhase {N : Nat} (phase : V N (BitVec 32)) : Option (BitVec 32) → V N (BitVec 32)
  | some p => fun _ => p
  | none => phase

/-- a block: message first, then the samples; the result is the phases from which the outputs are made -/
def blockStep {N : Nat} (f : V N (BitVec 32) → V N (BitVec 32) → V N (BitVec 32) × V N (BitVec 32)) (s : V N (BitVec 32))
    (i : Option (BitVec 32) × V N (BitVec 32)) : V N (BitVec 32) × V N (BitVec 32) :=
  f (setPhase s i.1) i.2

/-! ### message input -/

/-- messages: a frequency (as the step it is converted to) or a phase (converted) -/
inductive KMsg where
  | freq (s : BitVec 32)
  | phase (p : BitVec 32)

/-- `SignalPhasor`, SSE and NEON, HvSignalPhasor.h:26-44 -/
structure K4 where
  phase : W
  inc : W
  step : BitVec 32

/-- `sPhasor_k_updatePhase`, HvSignalPhasor.c:50-55 -/
def K4.updatePhase (o : K4) (p : BitVec 32) : K4 :=
  { o with phase := ![p, o.step + p, 2 * o.step + p, 3 * o.step + p] }

/-- `sPhasor_k_updateFrequency`, HvSignalPhasor.c:67-75 -/
def K4.updateFrequency (o : K4) (s : BitVec 32) : K4 :=
  { o with step := s, inc := fun _ => 4 * s }.updatePhase (o.phase 0)

/-- `sPhasor_k_init`, HvSignalPhasor.c:118-122 -/
def K4.init (s : BitVec 32) : K4 := K4.updateFrequency ⟨fun _ => 0, fun _ => 0, 0⟩ s

/-- `sPhasor_k_onMessage`, HvSignalPhasor.c:124-143 -/
def K4.onMessage (o : K4) : KMsg → K4
  | .freq s => o.updateFrequency s
  | .phase p => o.updatePhase p

/-- a block: the messages that arrived before it, then `__hv_phasor_k_f`, HvSignalPhasor.h:115-127 -/
def K4.block (o : K4) (msgs : List KMsg) : K4 × W :=
  let o := msgs.foldl K4.onMessage o
  ({ o with phase := fun i => o.phase i + o.inc i }, o.phase)

/-- scalar `SignalPhasor`; `inc` and `step.s` are the same -/
structure K1 where
  phase : BitVec 32
  inc : BitVec 32

/-- `sPhasor_k_init`, HvSignalPhasor.c:118-122, 76-80 -/
def K1.init (s : BitVec 32) : K1 := ⟨0, s⟩

/-- `sPhasor_k_onMessage`, scalar branches, HvSignalPhasor.c:124-143, 56-59, 76-80 -/
def K1.onMessage (o : K1) : KMsg → K1
  | .freq s => { o with inc := s }
  | .phase p => { o with phase := p }

/-- one sample: messages, then `__hv_phasor_k_f`, HvSignalPhasor.h:128-133 -/
def K1.block (o : K1) (msgs : List KMsg) : K1 × V 1 (BitVec 32) :=
  let o := msgs.foldl K1.onMessage o
  ({ o with phase := o.phase + o.inc }, fun _ => o.phase)

/-! ### AVX -/

/-- HvSignalPhasor.h:75-78, 110-113: `(~0xFF800000 & v) | 1.0f` on the bits of a float; meant to bring a phase back into
[1, 2) -/
def avxWrap (b : BitVec 32) : BitVec 32 := (~~~ 0xFF800000#32 &&& b) ||| 0x3F800000#32

end Verif.Phasor
