import Verif.Simd
/-!
`hvcc/generators/ir2c/static/HvMath.h`: the stateless signal functions, in each of the builds the header has
(HvUtils.h:56-122 chooses one from the compiler's target).

A sample is its 32 bits.  Comparisons, bit operations and the instructions that only move lanes are concrete;
rounding arithmetic and the C library are parameters (`Hw`): the same parameter stands for an operation in C and for the
vector instruction that IEEE 754 requires to give the same number (`+` and `_mm_add_ps`).  So flush-to-zero modes and
contraction by the C compiler are not modelled.  `hv_assert(0)` is `none`.
-/
namespace Verif.HvMath
open Verif.Simd (V)

/-- the bits of one `float` or `int` lane -/
abbrev W := BitVec 32

/-- The builds, HvUtils.h:56-122; the flag is `HV_SIMD_FMA`.  `neon8` is `__ARM_ARCH >= 8`. -/
inductive Build
  | avx (fma : Bool)
  | sse (fma : Bool)
  | neon8
  | neon7
  | none
deriving DecidableEq

/-- `HV_N_SIMD`, HvUtils.h:73, 85, 97, 109 -/
abbrev Build.lanes : Build → Nat
  | .avx _ => 8
  | .sse _ => 4
  | .neon8 => 4
  | .neon7 => 4
  | .none => 1

/-- the value of `hv_bInf_t` -/
abbrev Vec (b : Build) := V b.lanes W

/-! ### numbers -/

def signBit : W := 0x80000000#32
def one : W := 0x3f800000#32
def negOne : W := 0xbf800000#32
def allOnes : W := 0xffffffff#32

/-- the magnitude: the bits without the sign -/
def mag (w : W) : Nat := (w &&& 0x7fffffff#32).toNat

/-- exponent all ones, mantissa not zero -/
def isNaN (w : W) : Bool := decide (0x7f800000 < mag w)

/-- positive or negative zero -/
def isZero (w : W) : Bool := mag w == 0

/-- numbers are ordered as these integers -/
def key (w : W) : Int := if w.msb then - (mag w : Int) else mag w

/-- `a < b` in C, and the ordered comparison of the vector units -/
def flt (a b : W) : Bool := !isNaN a && !isNaN b && decide (key a < key b)
/-- `a <= b` -/
def fle (a b : W) : Bool := !isNaN a && !isNaN b && decide (key a ≤ key b)
/-- `a == b` -/
def feq (a b : W) : Bool := !isNaN a && !isNaN b && decide (key a = key b)

/-- The arithmetic and the libraries the functions are made of. -/
structure Hw where
  add : W → W → W
  sub : W → W → W
  mul : W → W → W
  div : W → W → W
  /-- one rounding of `a * b + c` -/
  fma : W → W → W → W
  sqrt : W → W
  cos : W → W
  exp : W → W
  log : W → W
  pow : W → W → W
  floor : W → W
  ceil : W → W
  fminf : W → W → W
  fmaxf : W → W → W
  /-- `(float) i` -/
  ofInt : W → W
  /-- `(int) x`: towards zero -/
  trunc : W → W
  /-- `_mm_cvtps_epi32`: to the nearest, ties to even -/
  nearest : W → W
  /-- `vrecpeq_f32`, `vrsqrteq_f32`, `vrsqrtsq_f32`, `_mm_rsqrt_ps`: approximations -/
  recpe : W → W
  rsqrte : W → W
  rsqrts : W → W → W
  rsqrtps : W → W

/-! ### instructions -/

/-- an instruction that treats every lane alike -/
def map1 {N : Nat} (f : W → W) (a : V N W) : V N W := fun i => f (a i)
def map2 {N : Nat} (f : W → W → W) (a b : V N W) : V N W := fun i => f (a i) (b i)
def map3 {N : Nat} (f : W → W → W → W) (a b c : V N W) : V N W := fun i => f (a i) (b i) (c i)

/-- `_mm_set_ps(e3, e2, e1, e0)`: the last argument is lane 0 -/
def mmSet (e3 e2 e1 e0 : W) : V 4 W := ![e0, e1, e2, e3]
/-- `_mm256_set_ps(e7, …, e0)` -/
def mm256Set (e7 e6 e5 e4 e3 e2 e1 e0 : W) : V 8 W := ![e0, e1, e2, e3, e4, e5, e6, e7]
/-- `(float32x4_t) {e0, e1, e2, e3}` -/
def neonInit (e0 e1 e2 e3 : W) : V 4 W := ![e0, e1, e2, e3]

/-- `_mm256_castsi256_si128`, `_mm256_castps256_ps128` -/
def low128 (a : V 8 W) : V 4 W := fun i => a ⟨i, by omega⟩
/-- `_mm256_extractf128_si256(a, 1)` -/
def high128 (a : V 8 W) : V 4 W := fun i => a ⟨i + 4, by omega⟩
/-- `_mm256_insertf128_si256(_mm256_castsi128_si256(x), y, 1)` -/
def join128 (x y : V 4 W) : V 8 W :=
  fun i => if h : i.val < 4 then x ⟨i, h⟩ else y ⟨i - 4, by omega⟩

/-- a comparison instruction: all ones where it holds, zero elsewhere -/
def maskOf (p : Bool) : W := if p then allOnes else 0

/-- `_mm_andnot_ps(a, b)`: not `a`, and `b` -/
def andnot (a b : W) : W := ~~~a &&& b
/-- `vbicq_u32(a, b)`: `a`, and not `b` -/
def bic (a b : W) : W := a &&& ~~~b
/-- `_mm_min_ps(a, b)`: the second operand unless the first is less -/
def minps (a b : W) : W := if flt a b then a else b
/-- `_mm_max_ps(a, b)`: the second operand unless the first is greater -/
def maxps (a b : W) : W := if flt b a then a else b
/-- `vminq_f32`: a NaN if either is; the negative zero is the smaller one -/
def vmin (a b : W) : W :=
  if isNaN a || isNaN b then 0x7fc00000#32 else if flt a b then a else if flt b a then b else a ||| b
/-- `vmaxq_f32` -/
def vmax (a b : W) : W :=
  if isNaN a || isNaN b then 0x7fc00000#32 else if flt b a then a else if flt a b then b else a &&& b
/-- `_mm_min_epi32`, `vminq_s32` -/
def smin (a b : W) : W := if a.slt b then a else b
/-- `_mm_max_epi32`, `vmaxq_s32` -/
def smax (a b : W) : W := if b.slt a then a else b

/-! ### functions of one signal -/

/-- `__hv_zero_f`, HvMath.h:27-37 -/
def zeroF (b : Build) : Vec b := fun _ => 0

/-- `__hv_log2_f`, HvMath.h:75-103.  SSE shifts zeros into the exponent (`_mm_srli_epi32`), NEON the sign
(`vshrq_n_s32`); `0xbf74fb9d` is `-0.9569643f` and `0x3fb8aa3b` is `1.442695040888963f`. -/
def log2F (hw : Hw) : (b : Build) → Vec b → Option (Vec b)
  | .avx _, _ => .none
  | .sse _, x =>
    let c := map1 (fun a => (a >>> 23) - 127#32) x
    let d := map1 hw.ofInt c
    let f := map1 (fun a => andnot 0xff800000#32 a ||| 0x3f800000#32) x
    let g := map2 hw.add d f
    some (map1 (fun g => hw.add g 0xbf74fb9d#32) g)
  | .neon8, x =>
    let c := map1 (fun a => (a.sshiftRight 23) - 127#32) x
    let d := map1 hw.ofInt c
    let f := map1 (fun a => bic a 0xff800000#32 ||| 0x3f800000#32) x
    let g := map2 hw.add d f
    some (map1 (fun g => hw.add g 0xbf74fb9d#32) g)
  | .neon7, x =>
    let c := map1 (fun a => (a.sshiftRight 23) - 127#32) x
    let d := map1 hw.ofInt c
    let f := map1 (fun a => bic a 0xff800000#32 ||| 0x3f800000#32) x
    let g := map2 hw.add d f
    some (map1 (fun g => hw.add g 0xbf74fb9d#32) g)
  | .none, x => some (map1 (fun a => hw.mul 0x3fb8aa3b#32 (hw.log a)) x)

/-- `__hv_cos_f`, HvMath.h:105-118 -/
def cosF (hw : Hw) : (b : Build) → Vec b → Vec b
  | .avx _, x => mm256Set (hw.cos (x 7)) (hw.cos (x 6)) (hw.cos (x 5)) (hw.cos (x 4))
      (hw.cos (x 3)) (hw.cos (x 2)) (hw.cos (x 1)) (hw.cos (x 0))
  | .sse _, x => mmSet (hw.cos (x 3)) (hw.cos (x 2)) (hw.cos (x 1)) (hw.cos (x 0))
  | .neon8, x => neonInit (hw.cos (x 0)) (hw.cos (x 1)) (hw.cos (x 2)) (hw.cos (x 3))
  | .neon7, x => neonInit (hw.cos (x 0)) (hw.cos (x 1)) (hw.cos (x 2)) (hw.cos (x 3))
  | .none, x => map1 hw.cos x

/-- The functions that are `hv_assert(0)` in every vector build: HvMath.h:120-262 (`acos` … `atanh`), 336-346
(`expm1`), 480-505 (`cast_if_expr`, `cast_fi_expr`), 713-723 (`not`), 789-1154 (`cbrt` … `ldexp`); `f` is the function of
the scalar build, of all the operands of one sample. -/
def onlyScalar (f : List W → W) : (b : Build) → List (Vec b) → Option (Vec b)
  | .avx _, _ => .none
  | .sse _, _ => .none
  | .neon8, _ => .none
  | .neon7, _ => .none
  | .none, xs => some (fun i => f (xs.map (fun x => x i)))

/-- NEON's square root, HvMath.h:269-271 -/
def neonSqrt (hw : Hw) (x : W) : W :=
  let y := hw.rsqrte x
  hw.mul x (hw.mul (hw.rsqrts (hw.mul x y) y) y)

/-- `__hv_sqrt_f`, HvMath.h:264-275 -/
def sqrtF (hw : Hw) : (b : Build) → Vec b → Vec b
  | .avx _, x => map1 hw.sqrt x
  | .sse _, x => map1 hw.sqrt x
  | .neon8, x => map1 (neonSqrt hw) x
  | .neon7, x => map1 (neonSqrt hw) x
  | .none, x => map1 hw.sqrt x

/-- `__hv_rsqrt_f`, HvMath.h:277-288 -/
def rsqrtF (hw : Hw) : (b : Build) → Vec b → Vec b
  | .avx _, x => map1 hw.rsqrtps x
  | .sse _, x => map1 hw.rsqrtps x
  | .neon8, x => map1 (fun x => hw.mul (hw.rsqrts (hw.mul x (hw.rsqrte x)) (hw.rsqrte x)) (hw.rsqrte x)) x
  | .neon7, x => map1 (fun x => hw.mul (hw.rsqrts (hw.mul x (hw.rsqrte x)) (hw.rsqrte x)) (hw.rsqrte x)) x
  | .none, x => map1 (fun x => hw.div one (hw.sqrt x)) x

/-- `fabsf`, `vabsq_f32`: clears the sign -/
def fabs (w : W) : W := w &&& 0x7fffffff#32

/-- `__hv_abs_f`, HvMath.h:290-300 -/
def absF : (b : Build) → Vec b → Vec b
  | .avx _, x => map1 (andnot signBit) x
  | .sse _, x => map1 (andnot signBit) x
  | .neon8, x => map1 fabs x
  | .neon7, x => map1 fabs x
  | .none, x => map1 fabs x

/-- `__hv_neg_f`, HvMath.h:302-312 -/
def negF (hw : Hw) : (b : Build) → Vec b → Vec b
  | .avx _, x => map1 (fun a => a ^^^ signBit) x
  | .sse _, x => map1 (fun a => a ^^^ signBit) x
  | .neon8, x => map1 (fun a => a ^^^ signBit) x
  | .neon7, x => map1 (fun a => a ^^^ signBit) x
  | .none, x => map1 (fun a => hw.mul a negOne) x

/-- `__hv_exp_f`, HvMath.h:314-334 -/
def expF (hw : Hw) : (b : Build) → Vec b → Vec b
  | .avx _, x => mm256Set (hw.exp (x 7)) (hw.exp (x 6)) (hw.exp (x 5)) (hw.exp (x 4))
      (hw.exp (x 3)) (hw.exp (x 2)) (hw.exp (x 1)) (hw.exp (x 0))
  | .sse _, x => mmSet (hw.exp (x 3)) (hw.exp (x 2)) (hw.exp (x 1)) (hw.exp (x 0))
  | .neon8, x => neonInit (hw.exp (x 0)) (hw.exp (x 1)) (hw.exp (x 2)) (hw.exp (x 3))
  | .neon7, x => neonInit (hw.exp (x 0)) (hw.exp (x 1)) (hw.exp (x 2)) (hw.exp (x 3))
  | .none, x => map1 hw.exp x

/-- `__hv_ceil_f`, HvMath.h:348-364 -/
def ceilF (hw : Hw) : (b : Build) → Vec b → Vec b
  | .avx _, x => map1 hw.ceil x
  | .sse _, x => map1 hw.ceil x
  | .neon8, x => map1 hw.ceil x
  | .neon7, x => neonInit (hw.ceil (x 0)) (hw.ceil (x 1)) (hw.ceil (x 2)) (hw.ceil (x 3))
  | .none, x => map1 hw.ceil x

/-- `__hv_floor_f`, HvMath.h:366-382 -/
def floorF (hw : Hw) : (b : Build) → Vec b → Vec b
  | .avx _, x => map1 hw.floor x
  | .sse _, x => map1 hw.floor x
  | .neon8, x => map1 hw.floor x
  | .neon7, x => neonInit (hw.floor (x 0)) (hw.floor (x 1)) (hw.floor (x 2)) (hw.floor (x 3))
  | .none, x => map1 hw.floor x

/-- `__hv_cast_if`, HvMath.h:454-464 -/
def castIF (hw : Hw) : (b : Build) → Vec b → Vec b
  | .avx _, x => map1 hw.ofInt x
  | .sse _, x => map1 hw.ofInt x
  | .neon8, x => map1 hw.ofInt x
  | .neon7, x => map1 hw.ofInt x
  | .none, x => map1 hw.ofInt x

/-- `__hv_cast_fi`, HvMath.h:467-477 -/
def castFI (hw : Hw) : (b : Build) → Vec b → Vec b
  | .avx _, x => map1 hw.nearest x
  | .sse _, x => map1 hw.nearest x
  | .neon8, x => map1 hw.trunc x
  | .neon7, x => map1 hw.trunc x
  | .none, x => map1 hw.trunc x

/-! ### functions of two signals -/

/-- `__hv_add_f`, HvMath.h:385-396 -/
def addF (hw : Hw) : (b : Build) → Vec b → Vec b → Vec b
  | .avx _, x, y => map2 hw.add x y
  | .sse _, x, y => map2 hw.add x y
  | .neon8, x, y => map2 hw.add x y
  | .neon7, x, y => map2 hw.add x y
  | .none, x, y => map2 hw.add x y

/-- `__hv_add_i`, HvMath.h:398-411 -/
def addI : (b : Build) → Vec b → Vec b → Vec b
  | .avx _, x, y => join128 (map2 (· + ·) (low128 x) (low128 y)) (map2 (· + ·) (high128 x) (high128 y))
  | .sse _, x, y => map2 (· + ·) x y
  | .neon8, x, y => map2 (· + ·) x y
  | .neon7, x, y => map2 (· + ·) x y
  | .none, x, y => map2 (· + ·) x y

/-- `__hv_sub_f`, HvMath.h:413-424 -/
def subF (hw : Hw) : (b : Build) → Vec b → Vec b → Vec b
  | .avx _, x, y => map2 hw.sub x y
  | .sse _, x, y => map2 hw.sub x y
  | .neon8, x, y => map2 hw.sub x y
  | .neon7, x, y => map2 hw.sub x y
  | .none, x, y => map2 hw.sub x y

/-- `__hv_mul_f`, HvMath.h:426-437 -/
def mulF (hw : Hw) : (b : Build) → Vec b → Vec b → Vec b
  | .avx _, x, y => map2 hw.mul x y
  | .sse _, x, y => map2 hw.mul x y
  | .neon8, x, y => map2 hw.mul x y
  | .neon7, x, y => map2 hw.mul x y
  | .none, x, y => map2 hw.mul x y

/-- `__hv_mul_i`, HvMath.h:439-452 -/
def mulI : (b : Build) → Vec b → Vec b → Vec b
  | .avx _, x, y => join128 (map2 (· * ·) (low128 x) (low128 y)) (map2 (· * ·) (high128 x) (high128 y))
  | .sse _, x, y => map2 (· * ·) x y
  | .neon8, x, y => map2 (· * ·) x y
  | .neon7, x, y => map2 (· * ·) x y
  | .none, x, y => map2 (· * ·) x y

/-- `__hv_div_f`, HvMath.h:507-523 -/
def divF (hw : Hw) : (b : Build) → Vec b → Vec b → Vec b
  | .avx _, x, y => map2 andnot (map1 (fun v => maskOf (feq v 0)) y) (map2 hw.div x y)
  | .sse _, x, y => map2 andnot (map1 (fun v => maskOf (feq v 0)) y) (map2 hw.div x y)
  | .neon8, x, y => map2 bic (map2 hw.mul x (map1 hw.recpe y)) (map1 (fun v => maskOf (feq v 0)) y)
  | .neon7, x, y => map2 bic (map2 hw.mul x (map1 hw.recpe y)) (map1 (fun v => maskOf (feq v 0)) y)
  | .none, x, y => map2 (fun x y => if !feq y 0 then hw.div x y else 0) x y

/-- `__hv_min_f`, HvMath.h:525-535 -/
def minF (hw : Hw) : (b : Build) → Vec b → Vec b → Vec b
  | .avx _, x, y => map2 minps x y
  | .sse _, x, y => map2 minps x y
  | .neon8, x, y => map2 vmin x y
  | .neon7, x, y => map2 vmin x y
  | .none, x, y => map2 hw.fminf x y

/-- `__hv_min_i`, HvMath.h:537-549 -/
def minI : (b : Build) → Vec b → Vec b → Vec b
  | .avx _, x, y => join128 (map2 smin (low128 x) (low128 y)) (map2 smin (high128 x) (high128 y))
  | .sse _, x, y => map2 smin x y
  | .neon8, x, y => map2 smin x y
  | .neon7, x, y => map2 smin x y
  | .none, x, y => map2 (fun a b => if a.slt b then a else b) x y

/-- `__hv_max_f`, HvMath.h:551-561 -/
def maxF (hw : Hw) : (b : Build) → Vec b → Vec b → Vec b
  | .avx _, x, y => map2 maxps x y
  | .sse _, x, y => map2 maxps x y
  | .neon8, x, y => map2 vmax x y
  | .neon7, x, y => map2 vmax x y
  | .none, x, y => map2 hw.fmaxf x y

/-- `__hv_max_i`, HvMath.h:563-575 -/
def maxI : (b : Build) → Vec b → Vec b → Vec b
  | .avx _, x, y => join128 (map2 smax (low128 x) (low128 y)) (map2 smax (high128 x) (high128 y))
  | .sse _, x, y => map2 smax x y
  | .neon8, x, y => map2 smax x y
  | .neon7, x, y => map2 smax x y
  | .none, x, y => map2 (fun a b => if b.slt a then a else b) x y

/-- `b[0..]` after `_mm_store_ps(b, x); _mm_store_ps(b+N, y)` -/
def twoStored {N : Nat} (x y : V N W) (k : Nat) (hk : k < N + N) : W :=
  if h : k < N then x ⟨k, h⟩ else y ⟨k - N, by omega⟩

/-- `__hv_pow_f`, HvMath.h:577-609 -/
def powF (hw : Hw) : (b : Build) → Vec b → Vec b → Vec b
  | .avx _, x, y =>
    let b (k : Nat) (hk : k < 16 := by omega) : W := twoStored (N := 8) x y k hk
    mm256Set (hw.pow (b 7) (b 15)) (hw.pow (b 6) (b 14)) (hw.pow (b 5) (b 13)) (hw.pow (b 4) (b 12))
      (hw.pow (b 3) (b 11)) (hw.pow (b 2) (b 10)) (hw.pow (b 1) (b 9)) (hw.pow (b 0) (b 8))
  | .sse _, x, y =>
    let b (k : Nat) (hk : k < 8 := by omega) : W := twoStored (N := 4) x y k hk
    mmSet (hw.pow (b 3) (b 7)) (hw.pow (b 2) (b 6)) (hw.pow (b 1) (b 5)) (hw.pow (b 0) (b 4))
  | .neon8, x, y => neonInit (hw.pow (x 0) (y 0)) (hw.pow (x 1) (y 1)) (hw.pow (x 2) (y 2)) (hw.pow (x 3) (y 3))
  | .neon7, x, y => neonInit (hw.pow (x 0) (y 0)) (hw.pow (x 1) (y 1)) (hw.pow (x 2) (y 2)) (hw.pow (x 3) (y 3))
  | .none, x, y => map2 hw.pow x y

/-- `c ? 1.0f : 0.0f` -/
def oneOf (p : Bool) : W := if p then one else 0

/-- `__hv_gt_f`, HvMath.h:611-621 -/
def gtF : (b : Build) → Vec b → Vec b → Vec b
  | .avx _, x, y => map2 (fun a b => maskOf (flt b a)) x y
  | .sse _, x, y => map2 (fun a b => maskOf (flt b a)) x y
  | .neon8, x, y => map2 (fun a b => maskOf (flt b a)) x y
  | .neon7, x, y => map2 (fun a b => maskOf (flt b a)) x y
  | .none, x, y => map2 (fun a b => oneOf (flt b a)) x y

/-- `__hv_gte_f`, HvMath.h:623-633 -/
def gteF : (b : Build) → Vec b → Vec b → Vec b
  | .avx _, x, y => map2 (fun a b => maskOf (fle b a)) x y
  | .sse _, x, y => map2 (fun a b => maskOf (fle b a)) x y
  | .neon8, x, y => map2 (fun a b => maskOf (fle b a)) x y
  | .neon7, x, y => map2 (fun a b => maskOf (fle b a)) x y
  | .none, x, y => map2 (fun a b => oneOf (fle b a)) x y

/-- `__hv_lt_f`, HvMath.h:635-645 -/
def ltF : (b : Build) → Vec b → Vec b → Vec b
  | .avx _, x, y => map2 (fun a b => maskOf (flt a b)) x y
  | .sse _, x, y => map2 (fun a b => maskOf (flt a b)) x y
  | .neon8, x, y => map2 (fun a b => maskOf (flt a b)) x y
  | .neon7, x, y => map2 (fun a b => maskOf (flt a b)) x y
  | .none, x, y => map2 (fun a b => oneOf (flt a b)) x y

/-- `__hv_lte_f`, HvMath.h:647-657 -/
def lteF : (b : Build) → Vec b → Vec b → Vec b
  | .avx _, x, y => map2 (fun a b => maskOf (fle a b)) x y
  | .sse _, x, y => map2 (fun a b => maskOf (fle a b)) x y
  | .neon8, x, y => map2 (fun a b => maskOf (fle a b)) x y
  | .neon7, x, y => map2 (fun a b => maskOf (fle a b)) x y
  | .none, x, y => map2 (fun a b => oneOf (fle a b)) x y

/-- `__hv_eq_f`, HvMath.h:659-669 -/
def eqF : (b : Build) → Vec b → Vec b → Vec b
  | .avx _, x, y => map2 (fun a b => maskOf (feq a b)) x y
  | .sse _, x, y => map2 (fun a b => maskOf (feq a b)) x y
  | .neon8, x, y => map2 (fun a b => maskOf (feq a b)) x y
  | .neon7, x, y => map2 (fun a b => maskOf (feq a b)) x y
  | .none, x, y => map2 (fun a b => oneOf (feq a b)) x y

/-- `__hv_neq_f`, HvMath.h:671-681: `_CMP_NEQ_OQ` is false where an operand is a NaN, `_mm_cmpneq_ps` is true there -/
def neqF : (b : Build) → Vec b → Vec b → Vec b
  | .avx _, x, y => map2 (fun a b => maskOf (!isNaN a && !isNaN b && !feq a b)) x y
  | .sse _, x, y => map2 (fun a b => maskOf (!feq a b)) x y
  | .neon8, x, y => map2 (fun a b => ~~~(maskOf (feq a b))) x y
  | .neon7, x, y => map2 (fun a b => ~~~(maskOf (feq a b))) x y
  | .none, x, y => map2 (fun a b => oneOf (!feq a b)) x y

/-- the scalar `__hv_or_f`, HvMath.h:691-694 -/
def orNone (a b : W) : Option W :=
  if feq a 0 && feq b 0 then some 0
  else if feq a 0 then some b
  else if feq b 0 then some a
  else .none

/-- `__hv_or_f`, HvMath.h:683-696 -/
def orF : (b : Build) → Vec b → Vec b → Option (Vec b)
  | .avx _, x, y => some (map2 (fun a b => b ||| a) x y)
  | .sse _, x, y => some (map2 (fun a b => b ||| a) x y)
  | .neon8, x, y => some (map2 (fun a b => b ||| a) x y)
  | .neon7, x, y => some (map2 (fun a b => b ||| a) x y)
  | .none, x, y => (orNone (x 0) (y 0)).map (fun r _ => r)

/-- the scalar `__hv_and_f`, HvMath.h:706-709 -/
def andNone (a b : W) : Option W :=
  if feq a 0 || feq b 0 then some 0
  else if feq a one then some b
  else if feq b one then some a
  else .none

/-- `__hv_and_f`, HvMath.h:698-711 -/
def andF : (b : Build) → Vec b → Vec b → Option (Vec b)
  | .avx _, x, y => some (map2 (fun a b => b &&& a) x y)
  | .sse _, x, y => some (map2 (fun a b => b &&& a) x y)
  | .neon8, x, y => some (map2 (fun a b => b &&& a) x y)
  | .neon7, x, y => some (map2 (fun a b => b &&& a) x y)
  | .none, x, y => (andNone (x 0) (y 0)).map (fun r _ => r)

/-- `__hv_andnot_f`, HvMath.h:725-735; the first operand is the mask -/
def andnotF : (b : Build) → Vec b → Vec b → Vec b
  | .avx _, x, y => map2 andnot x y
  | .sse _, x, y => map2 andnot x y
  | .neon8, x, y => map2 (fun m v => bic v m) x y
  | .neon7, x, y => map2 (fun m v => bic v m) x y
  | .none, x, y => map2 (fun m v => if feq m 0 then v else 0) x y

/-! ### functions of three signals -/

/-- `__hv_fma_f`, HvMath.h:738-761; `hv_fma_f` is `fmaf` (HvUtils.h:262), except under emscripten (260), which is not
modelled.  `vfmaq_f32(a, b, c)` is `a + b * c`. -/
def fmaF (hw : Hw) : (b : Build) → Vec b → Vec b → Vec b → Vec b
  | .avx true, x, y, z => map3 hw.fma x y z
  | .avx false, x, y, z => map2 hw.add (map2 hw.mul x y) z
  | .sse true, x, y, z => map3 hw.fma x y z
  | .sse false, x, y, z => map2 hw.add (map2 hw.mul x y) z
  | .neon8, x, y, z => map3 (fun a b c => hw.fma b c a) z x y
  | .neon7, x, y, z => map2 hw.add (map2 hw.mul x y) z
  | .none, x, y, z => map3 hw.fma x y z

/-- `__hv_fms_f`, HvMath.h:764-787.  `_mm_fmsub_ps(a, b, c)` is `a * b - c`; `vfmsq_f32(a, b, c)` is `a - b * c`
(both rounded once). -/
def fmsF (hw : Hw) : (b : Build) → Vec b → Vec b → Vec b → Vec b
  | .avx true, x, y, z => map3 (fun a b c => hw.fma a b (c ^^^ signBit)) x y z
  | .avx false, x, y, z => map2 hw.sub (map2 hw.mul x y) z
  | .sse true, x, y, z => map3 (fun a b c => hw.fma a b (c ^^^ signBit)) x y z
  | .sse false, x, y, z => map2 hw.sub (map2 hw.mul x y) z
  | .neon8, x, y, z => map3 (fun a b c => hw.fma (b ^^^ signBit) c a) z x y
  | .neon7, x, y, z => map2 hw.sub (map2 hw.mul x y) z
  | .none, x, y, z => map2 hw.sub (map2 hw.mul x y) z

end Verif.HvMath
