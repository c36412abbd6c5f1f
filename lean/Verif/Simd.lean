import Mathlib.Algebra.Ring.Defs
import Mathlib.Data.Fin.VecNotation
/-!
The vector instructions used by the signal objects of `hvcc/generators/ir2c/static`, and the objects made of them that
need no arithmetic on bit patterns: `__hv_del1_f` (HvSignalDel1.h), `__hv_rpole_f` (HvSignalRPole.h), `__hv_cpole_f`
(HvSignalCPole.h), `__hv_biquad_f`, `__hv_biquad_k_f` (HvSignalBiquad.{h,c}).

Samples are elements of a commutative ring: rounding is not modelled.  A vector is a function on its lanes, lane 0
first.  The semantics of the instructions is that of the vendors' manuals.
-/
namespace Verif.Simd

/-- a vector register of `N` lanes -/
abbrev V (N : Nat) (α : Type) := Fin N → α

variable {α : Type}

/-! ### instructions -/

/-- `_mm_blend_ps(a, b, imm)`, `_mm256_blend_ps`: lane `i` from `b` where bit `i` of `imm` is set -/
def blend {N : Nat} (a b : V N α) (imm : Nat) : V N α := fun i => if imm.testBit i then b i else a i

/-- `_mm_shuffle_ps(a, b, _MM_SHUFFLE(z,y,x,w))`: lanes `w`, `x` of `a`, then lanes `y`, `z` of `b` -/
def shuffle (a b : V 4 α) (z y x w : Fin 4) : V 4 α := ![a w, a x, b y, b z]

/-- `_mm256_permute_ps(a, _MM_SHUFFLE(z,y,x,w))`: the same permutation in both halves -/
def permute (a : V 8 α) (z y x w : Fin 4) : V 8 α :=
  let lo (i : Fin 4) : α := a ⟨i, by omega⟩
  let hi (i : Fin 4) : α := a ⟨i + 4, by omega⟩
  ![lo w, lo x, lo y, lo z, hi w, hi x, hi y, hi z]

/-- one half of the result of `_mm256_permute2f128_ps`: selected by four bits -/
def sel128 [Zero α] (a b : V 8 α) (c : Nat) : V 4 α :=
  if c.testBit 3 then fun _ => 0
  else match c % 4 with
    | 0 => fun i => a ⟨i, by omega⟩
    | 1 => fun i => a ⟨i + 4, by omega⟩
    | 2 => fun i => b ⟨i, by omega⟩
    | _ => fun i => b ⟨i + 4, by omega⟩

/-- `_mm256_permute2f128_ps(a, b, imm)`: low half by bits 0-3 of `imm`, high half by bits 4-7 -/
def permute2f128 [Zero α] (a b : V 8 α) (imm : Nat) : V 8 α :=
  fun i => if h : i.val < 4 then sel128 a b (imm % 16) ⟨i, h⟩ else sel128 a b (imm / 16 % 16) ⟨i - 4, by omega⟩

/-- `vextq_f32(a, b, n)`: four consecutive lanes of `a` followed by `b`, from lane `n` -/
def vext (a b : V 4 α) (n : Nat) : V 4 α :=
  fun i => if h : i.val + n < 4 then a ⟨i.val + n, h⟩ else b ⟨(i.val + n - 4) % 4, Nat.mod_lt _ (by omega)⟩

/-- `__hv_mul_f`, HvMath.h:426-437 -/
def mul {N : Nat} [Mul α] (a b : V N α) : V N α := fun i => a i * b i
/-- `__hv_add_f`, HvMath.h:385-396 -/
def add {N : Nat} [Add α] (a b : V N α) : V N α := fun i => a i + b i
/-- `__hv_sub_f`, HvMath.h:413-424 -/
def sub {N : Nat} [Sub α] (a b : V N α) : V N α := fun i => a i - b i
/-- `__hv_fma_f(in0, in1, in2)`, HvMath.h:738-761: `in0 * in1 + in2` -/
def fma {N : Nat} [Mul α] [Add α] (a b c : V N α) : V N α := fun i => a i * b i + c i
/-- all lanes zero -/
def zero {N : Nat} [Zero α] : V N α := fun _ => 0

/-! ### running an object -/

/-- the state before block `k`, for the inputs `inp` (one per block) -/
def stateAt {σ ι ω : Type} (f : σ → ι → σ × ω) (s : σ) (inp : Nat → ι) : Nat → σ
  | 0 => s
  | k + 1 => (f (stateAt f s inp k) (inp k)).1

/-- what is computed for block `k` -/
def outAt {σ ι ω : Type} (f : σ → ι → σ × ω) (s : σ) (inp : Nat → ι) (k : Nat) : ω :=
  (f (stateAt f s inp k) (inp k)).2

/-- block `k` of a signal, with `N` samples per block -/
def block (N : Nat) (x : Nat → α) (k : Nat) : V N α := fun j => x (k * N + j)

/-! ### one sample delay -/

/-- `__hv_del1_f`, HV_SIMD_NONE, HvSignalDel1.h:47-50; the vector has one lane -/
def del1None (s x : V 1 α) : V 1 α × V 1 α := (x, s)

/-- `__hv_del1_f`, HV_SIMD_SSE, HvSignalDel1.h:40-43 -/
def del1Sse (s x : V 4 α) : V 4 α × V 4 α :=
  let n := blend s x 0x7
  (x, shuffle n n 2 1 0 3)

/-- `__hv_del1_f`, HV_SIMD_NEON, HvSignalDel1.h:44-46 -/
def del1Neon (s x : V 4 α) : V 4 α × V 4 α := (x, vext s x 3)

/-- `__hv_del1_f`, HV_SIMD_AVX, HvSignalDel1.h:35-39, with the constant of line 37 as a parameter (it is `0x1`) -/
def del1AvxWith [Zero α] (imm : Nat) (s bIn0 : V 8 α) : V 8 α × V 8 α :=
  let x := permute bIn0 2 1 0 3
  let n := permute2f128 s x imm
  (x, blend x n 0x11)

/-- `__hv_del1_f`, HV_SIMD_AVX, HvSignalDel1.h:35-39 -/
def del1Avx [Zero α] (s bIn0 : V 8 α) : V 8 α × V 8 α := del1AvxWith 0x1 s bIn0

/-! ### real pole -/

/-- `__hv_rpole_f`, HV_SIMD_NONE, HvSignalRPole.h:120-123; the input is the pair (signal, coefficient) -/
def rpoleNone [Mul α] [Sub α] (ym : V 1 α) (inp : V 1 α × V 1 α) : V 1 α × V 1 α :=
  let y := sub inp.1 (mul inp.2 ym)
  (y, y)

/-- `SignalRPole`, SSE and NEON, HvSignalRPole.h:46-53, in the order of the C fields -/
structure RPole4 (α : Type) where
  i8Twk : V 4 α
  KYibU : V 4 α
  spa5V : V 4 α
  hXdb : V 4 α
  Aj1oK : V 4 α
  jNX1g : V 4 α
  ym : V 4 α

/-- `sRPole_init`, HvSignalRPole.c:36-43 -/
def RPole4.init [Zero α] : RPole4 α := ⟨zero, zero, zero, zero, zero, zero, zero⟩

/-- `__hv_rpole_f`, SSE and NEON, HvSignalRPole.h:101-119, for the one-sample delay `del1` of the back end.
Every assignment to a C variable is a `let` of the same name. -/
def rpole4 [Mul α] [Add α] [Sub α] (del1 : V 4 α → V 4 α → V 4 α × V 4 α) (o : RPole4 α) (inp : V 4 α × V 4 α) :
    RPole4 α × V 4 α :=
  let bIn0 := inp.1
  let bIn1 := inp.2
  let (s1, a) := del1 o.i8Twk bIn1
  let b := mul bIn1 a
  let (s2, a) := del1 o.KYibU a
  let c := mul b a
  let (s3, a) := del1 o.spa5V a
  let a := mul c a
  let (s4, e) := del1 o.hXdb bIn0
  let (s5, f) := del1 o.Aj1oK e
  let e := mul e bIn1
  let e := sub bIn0 e
  let e := fma f b e
  let (s6, f) := del1 o.jNX1g f
  let c := mul f c
  let c := sub e c
  let c := fma a o.ym c
  (⟨s1, s2, s3, s4, s5, s6, c⟩, c)

/-- `SignalRPole`, AVX, HvSignalRPole.h:30-45, in the order of the C fields -/
structure RPole8 (α : Type) where
  a1 : V 8 α
  a2 : V 8 α
  a3 : V 8 α
  a4 : V 8 α
  a5 : V 8 α
  a6 : V 8 α
  a7 : V 8 α
  x1 : V 8 α
  x2 : V 8 α
  x3 : V 8 α
  x4 : V 8 α
  x5 : V 8 α
  x6 : V 8 α
  x7 : V 8 α
  ym : V 8 α

/-- `sRPole_init`, HvSignalRPole.c:20-35 -/
def RPole8.init [Zero α] : RPole8 α :=
  ⟨zero, zero, zero, zero, zero, zero, zero, zero, zero, zero, zero, zero, zero, zero, zero⟩

/-- `__hv_rpole_f`, AVX, HvSignalRPole.h:64-100 -/
def rpole8 [Mul α] [Add α] [Sub α] (del1 : V 8 α → V 8 α → V 8 α × V 8 α) (o : RPole8 α) (inp : V 8 α × V 8 α) :
    RPole8 α × V 8 α :=
  let bIn0 := inp.1
  let bIn1 := inp.2
  let (t1, a) := del1 o.a1 bIn1
  let b := mul bIn1 a
  let (t2, a) := del1 o.a2 a
  let c := mul b a
  let (t3, a) := del1 o.a3 a
  let d := mul c a
  let (t4, a) := del1 o.a4 a
  let e := mul d a
  let (t5, a) := del1 o.a5 a
  let f := mul e a
  let (t6, a) := del1 o.a6 a
  let g := mul f a
  let (t7, a) := del1 o.a7 a
  let a := mul g a
  let (u1, i) := del1 o.x1 bIn0
  let (u2, j) := del1 o.x2 i
  let (u3, k) := del1 o.x3 j
  let (u4, l) := del1 o.x4 k
  let (u5, m) := del1 o.x5 l
  let (u6, n) := del1 o.x6 m
  let i := mul i bIn1
  let i := sub bIn0 i
  let i := fma j b i
  let c := mul k c
  let c := sub i c
  let c := fma l d c
  let e := mul m e
  let e := sub c e
  let e := fma n f e
  let (u7, n) := del1 o.x7 n
  let g := mul n g
  let g := sub e g
  let g := fma a o.ym g
  (⟨t1, t2, t3, t4, t5, t6, t7, u1, u2, u3, u4, u5, u6, u7, g⟩, g)

/-! ### complex pole -/

/-- the four inputs of `__hv_cpole_f`: real and imaginary part of the signal, of the coefficient -/
structure CIn (N : Nat) (α : Type) where
  bIn0 : V N α
  bIn1 : V N α
  bIn2 : V N α
  bIn3 : V N α

/-- `__hv_cpole_f`, HV_SIMD_NONE, HvSignalCPole.h:290-294; state and output are the pair (real, imaginary) -/
def cpoleNone [Mul α] [Add α] [Sub α] (s : V 1 α × V 1 α) (i : CIn 1 α) : (V 1 α × V 1 α) × (V 1 α × V 1 α) :=
  let o0 := sub i.bIn0 (sub (mul i.bIn2 s.1) (mul i.bIn3 s.2))
  let o1 := sub i.bIn1 (add (mul i.bIn2 s.2) (mul i.bIn3 s.1))
  ((o0, o1), (o0, o1))

/-- `SignalCPole`, SSE and NEON, HvSignalCPole.h:61-75, in the order of use: delays of the signal (real `xr`, imaginary
`xi`), of the coefficient (`ar`, `ai`), and the last outputs -/
structure CPole4 (α : Type) where
  xr1 : V 4 α
  xi1 : V 4 α
  xr2 : V 4 α
  xi2 : V 4 α
  ar1 : V 4 α
  ai1 : V 4 α
  xr3 : V 4 α
  xi3 : V 4 α
  ar2 : V 4 α
  ai2 : V 4 α
  ar3 : V 4 α
  ai3 : V 4 α
  ymr : V 4 α
  ymi : V 4 α

/-- `sCPole_init`, HvSignalCPole.c:51-65 -/
def CPole4.init [Zero α] : CPole4 α :=
  ⟨zero, zero, zero, zero, zero, zero, zero, zero, zero, zero, zero, zero, zero, zero⟩

/-- `__hv_cpole_f`, SSE and NEON, HvSignalCPole.h:227-289 -/
def cpole4 [Mul α] [Add α] [Sub α] (del1 : V 4 α → V 4 α → V 4 α × V 4 α) (o : CPole4 α) (i : CIn 4 α) :
    CPole4 α × (V 4 α × V 4 α) :=
  let (s1, Bf0) := del1 o.xr1 i.bIn0
  let (s2, Bf1) := del1 o.xi1 i.bIn1
  let Bf2 := mul Bf0 i.bIn3
  let Bf2 := fma Bf1 i.bIn2 Bf2
  let Bf3 := mul Bf0 i.bIn2
  let Bf4 := mul Bf1 i.bIn3
  let Bf4 := sub Bf3 Bf4
  let Bf2 := sub i.bIn1 Bf2
  let (s3, Bf0) := del1 o.xr2 Bf0
  let (s4, Bf1) := del1 o.xi2 Bf1
  let (s5, Bf3) := del1 o.ar1 i.bIn2
  let (s6, Bf5) := del1 o.ai1 i.bIn3
  let Bf6 := mul i.bIn3 Bf3
  let Bf6 := fma i.bIn2 Bf5 Bf6
  let Bf7 := mul i.bIn2 Bf3
  let Bf8 := mul i.bIn3 Bf5
  let Bf8 := sub Bf7 Bf8
  let Bf7 := mul Bf0 Bf8
  let Bf9 := mul Bf1 Bf6
  let Bf9 := sub Bf7 Bf9
  let Bf7 := mul Bf0 Bf6
  let Bf7 := fma Bf1 Bf8 Bf7
  let Bf7 := add Bf2 Bf7
  let (s7, Bf0) := del1 o.xr3 Bf0
  let (s8, Bf1) := del1 o.xi3 Bf1
  let (s9, Bf3) := del1 o.ar2 Bf3
  let (s10, Bf5) := del1 o.ai2 Bf5
  let Bf2 := mul Bf6 Bf3
  let Bf2 := fma Bf8 Bf5 Bf2
  let Bf8 := mul Bf8 Bf3
  let Bf6 := mul Bf6 Bf5
  let Bf6 := sub Bf8 Bf6
  let Bf8 := mul Bf0 Bf6
  let Bf10 := mul Bf1 Bf2
  let Bf10 := sub Bf8 Bf10
  let Bf1 := mul Bf1 Bf6
  let Bf1 := fma Bf0 Bf2 Bf1
  let Bf1 := sub Bf7 Bf1
  let (s11, Bf3) := del1 o.ar3 Bf3
  let (s12, Bf5) := del1 o.ai3 Bf5
  let Bf7 := mul Bf6 Bf3
  let Bf0 := mul Bf2 Bf5
  let Bf0 := sub Bf7 Bf0
  let Bf3 := mul Bf2 Bf3
  let Bf3 := fma Bf6 Bf5 Bf3
  let Bf5 := o.ymr
  let Bf6 := o.ymi
  let Bf2 := mul Bf3 Bf5
  let Bf2 := fma Bf0 Bf6 Bf2
  let Bf5 := mul Bf0 Bf5
  let Bf6 := mul Bf3 Bf6
  let Bf6 := sub Bf5 Bf6
  let Bf2 := add Bf1 Bf2
  let Bf4 := sub i.bIn0 Bf4
  let Bf9 := add Bf4 Bf9
  let Bf10 := sub Bf9 Bf10
  let Bf6 := add Bf10 Bf6
  (⟨s1, s2, s3, s4, s5, s6, s7, s8, s9, s10, s11, s12, Bf6, Bf2⟩, (Bf6, Bf2))

/-- `SignalCPole`, AVX, HvSignalCPole.h:30-60: the 28 delays in the order of the C fields, and the last outputs -/
structure CPole8 (α : Type) where
  del : Fin 28 → V 8 α
  ymr : V 8 α
  ymi : V 8 α

/-- `sCPole_init`, HvSignalCPole.c:20-50 -/
def CPole8.init [Zero α] : CPole8 α := ⟨fun _ => zero, zero, zero⟩

/-- `__hv_cpole_f`, AVX, HvSignalCPole.h:102-226, statement by statement (written by a script from the C text).  The second
component is what is stored through the pointers `bOut0` and `bOut1`: lines 224 and 225 both store to `bOut0`, `Bf7` last, nothing
stores to `bOut1` (`none`). -/
def cpole8 [Mul α] [Add α] [Sub α] (del1 : V 8 α → V 8 α → V 8 α × V 8 α) (o : CPole8 α) (i : CIn 8 α) :
    CPole8 α × (Option (V 8 α) × Option (V 8 α)) :=
  let (s0, Bf0) := del1 (o.del 0) i.bIn0
  let (s1, Bf1) := del1 (o.del 1) i.bIn1
  let Bf2 := mul Bf1 i.bIn2
  let Bf2 := fma Bf0 i.bIn3 Bf2
  let Bf3 := mul Bf0 i.bIn2
  let Bf4 := mul Bf1 i.bIn3
  let Bf4 := sub Bf3 Bf4
  let Bf2 := sub i.bIn1 Bf2
  let (s2, Bf0) := del1 (o.del 2) Bf0
  let (s3, Bf1) := del1 (o.del 3) Bf1
  let (s4, Bf3) := del1 (o.del 4) i.bIn2
  let (s5, Bf5) := del1 (o.del 5) i.bIn3
  let Bf6 := mul i.bIn2 Bf3
  let Bf7 := mul i.bIn3 Bf5
  let Bf7 := sub Bf6 Bf7
  let Bf6 := mul i.bIn3 Bf3
  let Bf6 := fma i.bIn2 Bf5 Bf6
  let Bf8 := mul Bf0 Bf6
  let Bf8 := fma Bf1 Bf7 Bf8
  let Bf9 := mul Bf0 Bf7
  let Bf10 := mul Bf1 Bf6
  let Bf10 := sub Bf9 Bf10
  let Bf8 := add Bf2 Bf8
  let (s6, Bf0) := del1 (o.del 6) Bf0
  let (s7, Bf1) := del1 (o.del 7) Bf1
  let (s8, Bf3) := del1 (o.del 8) Bf3
  let (s9, Bf5) := del1 (o.del 9) Bf5
  let Bf2 := mul Bf7 Bf3
  let Bf9 := mul Bf6 Bf5
  let Bf9 := sub Bf2 Bf9
  let Bf7 := mul Bf7 Bf5
  let Bf7 := fma Bf6 Bf3 Bf7
  let Bf6 := mul Bf1 Bf9
  let Bf6 := fma Bf0 Bf7 Bf6
  let Bf2 := mul Bf0 Bf9
  let Bf11 := mul Bf1 Bf7
  let Bf11 := sub Bf2 Bf11
  let Bf6 := sub Bf8 Bf6
  let (s10, Bf0) := del1 (o.del 10) Bf0
  let (s11, Bf1) := del1 (o.del 11) Bf1
  let (s12, Bf3) := del1 (o.del 12) Bf3
  let (s13, Bf5) := del1 (o.del 13) Bf5
  let Bf8 := mul Bf7 Bf3
  let Bf8 := fma Bf9 Bf5 Bf8
  let Bf9 := mul Bf9 Bf3
  let Bf7 := mul Bf7 Bf5
  let Bf7 := sub Bf9 Bf7
  let Bf9 := mul Bf0 Bf7
  let Bf2 := mul Bf1 Bf8
  let Bf2 := sub Bf9 Bf2
  let Bf9 := mul Bf0 Bf8
  let Bf9 := fma Bf1 Bf7 Bf9
  let Bf9 := add Bf6 Bf9
  let (s14, Bf0) := del1 (o.del 14) Bf0
  let (s15, Bf1) := del1 (o.del 15) Bf1
  let (s16, Bf3) := del1 (o.del 16) Bf3
  let (s17, Bf5) := del1 (o.del 17) Bf5
  let Bf6 := mul Bf8 Bf3
  let Bf6 := fma Bf7 Bf5 Bf6
  let Bf7 := mul Bf7 Bf3
  let Bf8 := mul Bf8 Bf5
  let Bf8 := sub Bf7 Bf8
  let Bf7 := mul Bf0 Bf8
  let Bf12 := mul Bf1 Bf6
  let Bf12 := sub Bf7 Bf12
  let Bf7 := mul Bf1 Bf8
  let Bf7 := fma Bf0 Bf6 Bf7
  let Bf7 := sub Bf9 Bf7
  let (s18, Bf0) := del1 (o.del 18) Bf0
  let (s19, Bf1) := del1 (o.del 19) Bf1
  let (s20, Bf3) := del1 (o.del 20) Bf3
  let (s21, Bf5) := del1 (o.del 21) Bf5
  let Bf9 := mul Bf6 Bf3
  let Bf9 := fma Bf8 Bf5 Bf9
  let Bf8 := mul Bf8 Bf3
  let Bf6 := mul Bf6 Bf5
  let Bf6 := sub Bf8 Bf6
  let Bf8 := mul Bf0 Bf9
  let Bf8 := fma Bf1 Bf6 Bf8
  let Bf13 := mul Bf0 Bf6
  let Bf14 := mul Bf1 Bf9
  let Bf14 := sub Bf13 Bf14
  let Bf8 := add Bf7 Bf8
  let (s22, Bf0) := del1 (o.del 22) Bf0
  let (s23, Bf1) := del1 (o.del 23) Bf1
  let (s24, Bf3) := del1 (o.del 24) Bf3
  let (s25, Bf5) := del1 (o.del 25) Bf5
  let Bf7 := mul Bf6 Bf5
  let Bf7 := fma Bf9 Bf3 Bf7
  let Bf6 := mul Bf6 Bf3
  let Bf9 := mul Bf9 Bf5
  let Bf9 := sub Bf6 Bf9
  let Bf6 := mul Bf0 Bf9
  let Bf13 := mul Bf1 Bf7
  let Bf13 := sub Bf6 Bf13
  let Bf0 := mul Bf0 Bf7
  let Bf0 := fma Bf1 Bf9 Bf0
  let Bf0 := sub Bf8 Bf0
  let (s26, Bf3) := del1 (o.del 26) Bf3
  let (s27, Bf5) := del1 (o.del 27) Bf5
  let Bf8 := mul Bf9 Bf3
  let Bf1 := mul Bf7 Bf5
  let Bf1 := sub Bf8 Bf1
  let Bf5 := mul Bf9 Bf5
  let Bf5 := fma Bf7 Bf3 Bf5
  let Bf3 := o.ymr
  let Bf4 := o.ymi
  let Bf9 := mul Bf1 Bf3
  let Bf8 := mul Bf5 Bf7
  let Bf8 := sub Bf9 Bf8
  let Bf7 := mul Bf1 Bf7
  let Bf7 := fma Bf5 Bf3 Bf7
  let Bf7 := add Bf0 Bf7
  let Bf4 := sub i.bIn0 Bf4
  let Bf10 := add Bf4 Bf10
  let Bf11 := sub Bf10 Bf11
  let Bf2 := add Bf11 Bf2
  let Bf12 := sub Bf2 Bf12
  let Bf14 := add Bf12 Bf14
  let Bf13 := sub Bf14 Bf13
  let Bf8 := add Bf13 Bf8
  (⟨![s0, s1, s2, s3, s4, s5, s6, s7, s8, s9, s10, s11, s12, s13, s14, s15, s16, s17, s18, s19, s20, s21, s22, s23, s24, s25, s26, s27], Bf8, Bf7⟩, (some Bf7, none))

/-! ### biquad -/

/-- the inputs of `__hv_biquad_f`: signal and five coefficient signals -/
structure BIn (N : Nat) (α : Type) where
  bIn : V N α
  bX0 : V N α
  bX1 : V N α
  bX2 : V N α
  bY1 : V N α
  bY2 : V N α

/-- `SignalBiquad`, HV_SIMD_NONE, HvSignalBiquad.h:28-36 -/
structure Biquad1 (α : Type) where
  xm1 : α
  xm2 : α
  ym1 : α
  ym2 : α

/-- `__hv_biquad_f`, HV_SIMD_NONE, HvSignalBiquad.c:125-129 -/
def biquadNone [Mul α] [Add α] [Sub α] (o : Biquad1 α) (i : BIn 1 α) : Biquad1 α × V 1 α :=
  let y := i.bIn 0 * i.bX0 0 + o.xm1 * i.bX1 0 + o.xm2 * i.bX2 0 - o.ym1 * i.bY1 0 - o.ym2 * i.bY2 0
  (⟨i.bIn 0, o.xm1, y, o.ym1⟩, ![y])

/-- `SignalBiquad` of the vector back ends -/
structure BiquadV (N : Nat) (α : Type) where
  x : V N α
  ym1 : α
  ym2 : α

/-- HvSignalBiquad.c:95-104 (SSE), 115-124 (NEON): the recursive part, the same in both -/
def biquadTail4 [Mul α] [Sub α] (o : BiquadV 4 α) (i : BIn 4 α) (e : V 4 α) : BiquadV 4 α × V 4 α :=
  let y0 := e 0 - o.ym1 * i.bY1 0 - o.ym2 * i.bY2 0
  let y1 := e 1 - y0 * i.bY1 1 - o.ym1 * i.bY2 1
  let y2 := e 2 - y1 * i.bY1 2 - y0 * i.bY2 2
  let y3 := e 3 - y2 * i.bY1 3 - y1 * i.bY2 3
  (⟨i.bIn, y3, y2⟩, ![y0, y1, y2, y3])

/-- `__hv_biquad_f`, HV_SIMD_SSE, HvSignalBiquad.c:80-104 -/
def biquadSse [Mul α] [Add α] [Sub α] (o : BiquadV 4 α) (i : BIn 4 α) : BiquadV 4 α × V 4 α :=
  let n := blend o.x i.bIn 0x7
  let xm1 := shuffle n n 2 1 0 3
  let xm2 := shuffle o.x i.bIn 1 0 3 2
  let a := mul i.bIn i.bX0
  let b := mul xm1 i.bX1
  let c := mul xm2 i.bX2
  let d := add a b
  let e := add c d
  biquadTail4 o i e

/-- `__hv_biquad_f`, HV_SIMD_NEON, HvSignalBiquad.c:105-124 -/
def biquadNeon [Mul α] [Add α] [Sub α] (o : BiquadV 4 α) (i : BIn 4 α) : BiquadV 4 α × V 4 α :=
  let xm1 := vext o.x i.bIn 3
  let xm2 := vext o.x i.bIn 2
  let a := mul i.bIn i.bX0
  let b := mul xm1 i.bX1
  let c := mul xm2 i.bX2
  let d := add a b
  let e := add c d
  biquadTail4 o i e

/-- HvSignalBiquad.c:63-78: the recursive part, AVX -/
def biquadTail8 [Mul α] [Sub α] (o : BiquadV 8 α) (i : BIn 8 α) (e : V 8 α) : BiquadV 8 α × V 8 α :=
  let y0 := e 0 - o.ym1 * i.bY1 0 - o.ym2 * i.bY2 0
  let y1 := e 1 - y0 * i.bY1 1 - o.ym1 * i.bY2 1
  let y2 := e 2 - y1 * i.bY1 2 - y0 * i.bY2 2
  let y3 := e 3 - y2 * i.bY1 3 - y1 * i.bY2 3
  let y4 := e 4 - y3 * i.bY1 4 - y2 * i.bY2 4
  let y5 := e 5 - y4 * i.bY1 5 - y3 * i.bY2 5
  let y6 := e 6 - y5 * i.bY1 6 - y4 * i.bY2 6
  let y7 := e 7 - y6 * i.bY1 7 - y5 * i.bY2 7
  (⟨i.bIn, y7, y6⟩, ![y0, y1, y2, y3, y4, y5, y6, y7])

/-- `__hv_biquad_f`, HV_SIMD_AVX, HvSignalBiquad.c:49-79 -/
def biquadAvx [Zero α] [Mul α] [Add α] [Sub α] (o : BiquadV 8 α) (i : BIn 8 α) : BiquadV 8 α × V 8 α :=
  let x := permute i.bIn 2 1 0 3
  let y := permute o.x 2 1 0 3
  let n := permute2f128 y x 0x21
  let xm1 := blend x n 0x11
  let x := permute i.bIn 1 0 3 2
  let y := permute o.x 1 0 3 2
  let n := permute2f128 y x 0x21
  let xm2 := blend x n 0x33
  let a := mul i.bIn i.bX0
  let b := mul xm1 i.bX1
  let c := mul xm2 i.bX2
  let d := add a b
  let e := add c d
  biquadTail8 o i e

/-! ### biquad with constant coefficients -/

/-- coefficients of the filter -/
structure Coef (α : Type) where
  b0 : α
  b1 : α
  b2 : α
  a1 : α
  a2 : α

/-- `coeffs[4][8]` before the loop, HvSignalBiquad.c:172-178 (`a1`, `a2` negated, lines 169-170) -/
def coeffs0 [Zero α] [Neg α] (c : Coef α) : Fin 4 → Fin 8 → α :=
  ![![0, 0, 0, c.b0, c.b1, c.b2, -c.a1, -c.a2],
    ![0, 0, c.b0, c.b1, c.b2, 0, -c.a2, 0],
    ![0, c.b0, c.b1, c.b2, 0, 0, 0, 0],
    ![c.b0, c.b1, c.b2, 0, 0, 0, 0, 0]]

/-- column `i` of `coeffs` after the loop of HvSignalBiquad.c:180-184, as the vector that lines 187-194 (SSE, AVX) and
196-203 (NEON) store: lane `r` is row `r` -/
def coeffCol [Zero α] [Neg α] [Mul α] [Add α] (c : Coef α) (i : Fin 8) : V 4 α :=
  let k0 := coeffs0 c 0 i
  let k1 := coeffs0 c 1 i + (-c.a1) * k0
  let k2 := coeffs0 c 2 i + ((-c.a1) * k1 + (-c.a2) * k0)
  let k3 := coeffs0 c 3 i + ((-c.a1) * k2 + (-c.a2) * k1)
  ![k0, k1, k2, k3]

/-- filter state of the vector back ends, HvSignalBiquad.h:64-67, 77-80 -/
structure BiquadK (α : Type) where
  xm1 : V 4 α
  xm2 : V 4 α
  ym1 : V 4 α
  ym2 : V 4 α

/-- the sum of HvSignalBiquad.h:120-136, 178-193, 207-221 -/
def biquadKSum [Zero α] [Neg α] [Mul α] [Add α] (cf : Coef α) (x3 x2 x1 x0 : V 4 α) (o : BiquadK α) : V 4 α :=
  let a := mul (coeffCol cf 0) x3
  let b := mul (coeffCol cf 1) x2
  let c := mul (coeffCol cf 2) x1
  let d := mul (coeffCol cf 3) x0
  let e := mul (coeffCol cf 4) o.xm1
  let f := mul (coeffCol cf 5) o.xm2
  let g := mul (coeffCol cf 6) o.ym1
  let h := mul (coeffCol cf 7) o.ym2
  let i := add a b
  let j := add c d
  let k := add e f
  let l := add g h
  let m := add i j
  let n := add k l
  add m n

/-- `__hv_biquad_k_f`, HV_SIMD_SSE, HvSignalBiquad.h:172-200 -/
def biquadKSse [Zero α] [Neg α] [Mul α] [Add α] (cf : Coef α) (o : BiquadK α) (bIn : V 4 α) : BiquadK α × V 4 α :=
  let x3 := shuffle bIn bIn 3 3 3 3
  let x2 := shuffle bIn bIn 2 2 2 2
  let x1 := shuffle bIn bIn 1 1 1 1
  let x0 := shuffle bIn bIn 0 0 0 0
  let y := biquadKSum cf x3 x2 x1 x0 o
  (⟨x3, x2, shuffle y y 3 3 3 3, shuffle y y 2 2 2 2⟩, y)

/-- `__hv_biquad_k_f`, HV_SIMD_NEON, HvSignalBiquad.h:201-228 -/
def biquadKNeon [Zero α] [Neg α] [Mul α] [Add α] (cf : Coef α) (o : BiquadK α) (bIn : V 4 α) : BiquadK α × V 4 α :=
  let x3 : V 4 α := fun _ => bIn 3
  let x2 : V 4 α := fun _ => bIn 2
  let x1 : V 4 α := fun _ => bIn 1
  let x0 : V 4 α := fun _ => bIn 0
  let y := biquadKSum cf x3 x2 x1 x0 o
  (⟨x3, x2, fun _ => y 3, fun _ => y 2⟩, y)

/-- `__hv_biquad_k_f`, HV_SIMD_AVX, HvSignalBiquad.h:100-171 -/
def biquadKAvx [Zero α] [Neg α] [Mul α] [Add α] (cf : Coef α) (o : BiquadK α) (bIn : V 8 α) : BiquadK α × V 8 α :=
  let x3 : V 4 α := fun _ => bIn 3
  let x2 : V 4 α := fun _ => bIn 2
  let x1 : V 4 α := fun _ => bIn 1
  let x0 : V 4 α := fun _ => bIn 0
  let lo := biquadKSum cf x3 x2 x1 x0 o
  let xm1 := x3
  let xm2 := x2
  let x3 : V 4 α := fun _ => bIn 7
  let x2 : V 4 α := fun _ => bIn 6
  let x1 : V 4 α := fun _ => bIn 5
  let x0 : V 4 α := fun _ => bIn 4
  let up := biquadKSum cf x3 x2 x1 x0 ⟨xm1, xm2, fun _ => lo 3, fun _ => lo 2⟩
  (⟨x3, x2, fun _ => up 3, fun _ => up 2⟩, ![lo 0, lo 1, lo 2, lo 3, up 0, up 1, up 2, up 3])

/-- `__hv_biquad_k_f`, HV_SIMD_NONE, HvSignalBiquad.h:229-236 -/
def biquadKNone [Mul α] [Add α] [Sub α] (c : Coef α) (o : Biquad1 α) (bIn : V 1 α) : Biquad1 α × V 1 α :=
  let y := c.b0 * bIn 0 + c.b1 * o.xm1 + c.b2 * o.xm2 - c.a1 * o.ym1 - c.a2 * o.ym2
  (⟨bIn 0, o.xm1, y, o.ym1⟩, ![y])

end Verif.Simd
