import Verif.Simd
/-!
`hvcc/generators/ir2c/templates/Heavy_NAME.cpp`: `processInline` and `processInlineInterleaved` of the generated context
class.

Buffers are memories indexed by sample.  `process` itself (the signal code) is a parameter: a function from the planar inputs
to the planar outputs.  That the caller's buffers are aligned for `_mm_load_ps` and do not overlap is assumed; `hv_alloca`
returns uninitialised memory, a parameter here (`junk`).
-/
namespace Verif.Interleave
open Verif.Simd

variable {α : Type}

/-- samples in memory -/
abbrev Buf (α : Type) := Nat → α

/-- `_mm_load_ps`, `_mm256_load_ps`, `vld1q_f32`: `N` consecutive samples -/
def load (N : Nat) (m : Buf α) (a : Nat) : V N α := fun i => m (a + i)

/-- `_mm_store_ps`, `_mm256_store_ps`, `vst1q_f32` -/
def store {N : Nat} (m : Buf α) (a : Nat) (v : V N α) : Buf α :=
  fun i => if h : a ≤ i ∧ i < a + N then v ⟨i - a, by omega⟩ else m i

/-- one sample -/
def put (m : Buf α) (a : Nat) (v : α) : Buf α := fun i => if i = a then v else m i

/-- `for (k = 0; k < K; ++k) body(k)` -/
def loop {σ : Type} (body : Nat → σ → σ) : Nat → σ → σ
  | 0, m => m
  | k + 1, m => body k (loop body k m)

/-- `_mm_unpacklo_ps` -/
def unpacklo (x y : V 4 α) : V 4 α := ![x 0, y 0, x 1, y 1]
/-- `_mm_unpackhi_ps` -/
def unpackhi (x y : V 4 α) : V 4 α := ![x 2, y 2, x 3, y 3]
/-- `_mm256_unpacklo_ps`: the same in both halves -/
def unpacklo8 (x y : V 8 α) : V 8 α := ![x 0, y 0, x 1, y 1, x 4, y 4, x 5, y 5]
/-- `_mm256_unpackhi_ps` -/
def unpackhi8 (x y : V 8 α) : V 8 α := ![x 2, y 2, x 3, y 3, x 6, y 6, x 7, y 7]

/-- `vld2q_f32(p)`: four pairs, separated -/
def vld2q (m : Buf α) (a : Nat) : V 4 α × V 4 α := (fun i => m (a + 2 * i), fun i => m (a + 2 * i + 1))
/-- `vst2q_f32(p, {x, y})`: four pairs -/
def vst2q (m : Buf α) (a : Nat) (x y : V 4 α) : Buf α := store m a (N := 8) ![x 0, y 0, x 1, y 1, x 2, y 2, x 3, y 3]

/-- the back ends -/
inductive Backend
  | sse | avx | neon | none
  deriving DecidableEq, Repr

/-- `HV_N_SIMD`, HvUtils.h:73, 85, 97, 109 -/
def Backend.n : Backend → Nat
  | .sse => 4
  | .avx => 8
  | .neon => 4
  | .none => 1

/-! ### input -/

/-- one channel after the other, lines 327-331, 335-340: `for j: for i: bIn[i*n4+j] = inputBuffers[i+ch*j]` -/
def splitScalar (ch : Nat) (inp : Buf α) (n4 : Nat) (bIn : Buf α) : Buf α :=
  loop (fun j m => loop (fun i m => put m (i * n4 + j) (inp (i + ch * j))) ch m) n4 bIn

/-- lines 310-317: two channels, SSE and AVX; `j = 4k`, `i = 8k` -/
def splitSse (inp : Buf α) (n4 : Nat) (bIn : Buf α) : Buf α :=
  loop (fun k m =>
    let a := load 4 inp (8 * k)
    let b := load 4 inp (4 + 8 * k)
    let x := shuffle a b 2 0 2 0
    let y := shuffle a b 3 1 3 1
    store (store m (4 * k) x) (n4 + 4 * k) y) ((n4 + 3) / 4) bIn

/-- lines 319-323: two channels, NEON -/
def splitNeon (inp : Buf α) (n4 : Nat) (bIn : Buf α) : Buf α :=
  loop (fun k m =>
    let a := vld2q inp (8 * k)
    store (store m (4 * k) a.1) (n4 + 4 * k) a.2) ((n4 + 3) / 4) bIn

/-- lines 303-341: the planar input -/
def splitInput (be : Backend) (ch : Nat) (inp : Buf α) (n4 : Nat) (junk : Buf α) : Buf α :=
  if ch = 0 then junk
  else if ch = 1 then inp
  else if ch = 2 then
    match be with
    | .sse => splitSse inp n4 junk
    | .avx => splitSse inp n4 junk
    | .neon => splitNeon inp n4 junk
    | .none => splitScalar 2 inp n4 junk
  else splitScalar ch inp n4 junk

/-! ### output -/

/-- lines 380-384, 388-392: `for i: for j: outputBuffers[i+ch*j] = bOut[i*n4+j]` -/
def joinScalar (ch : Nat) (bOut : Buf α) (n4 : Nat) (out : Buf α) : Buf α :=
  loop (fun i m => loop (fun j m => put m (i + ch * j) (bOut (i * n4 + j))) n4 m) ch out

/-- lines 355-362: AVX; `j = 8k`, `i = 16k` -/
def joinAvx (bOut : Buf α) (n4 : Nat) (out : Buf α) : Buf α :=
  loop (fun k m =>
    let x := load 8 bOut (8 * k)
    let y := load 8 bOut (n4 + 8 * k)
    let a := unpacklo8 x y
    let b := unpackhi8 x y
    store (store m (16 * k) a) (8 + 16 * k) b) ((n4 + 7) / 8) out

/-- lines 364-371: SSE -/
def joinSse (bOut : Buf α) (n4 : Nat) (out : Buf α) : Buf α :=
  loop (fun k m =>
    let x := load 4 bOut (4 * k)
    let y := load 4 bOut (n4 + 4 * k)
    let a := unpacklo x y
    let b := unpackhi x y
    store (store m (8 * k) a) (4 + 8 * k) b) ((n4 + 3) / 4) out

/-- lines 374-379: NEON -/
def joinNeon (bOut : Buf α) (n4 : Nat) (out : Buf α) : Buf α :=
  loop (fun k m => vst2q m (8 * k) (load 4 bOut (4 * k)) (load 4 bOut (n4 + 4 * k))) ((n4 + 3) / 4) out

/-- lines 352-394: what is stored in the caller's buffer after `processInline`; with one channel `bOut` is that buffer -/
def joinOutput (be : Backend) (ch : Nat) (bOut : Buf α) (n4 : Nat) (out : Buf α) : Buf α :=
  if ch = 0 then out
  else if ch = 1 then bOut
  else if ch = 2 then
    match be with
    | .avx => joinAvx bOut n4 out
    | .sse => joinSse bOut n4 out
    | .neon => joinNeon bOut n4 out
    | .none => joinScalar 2 bOut n4 out
  else joinScalar ch bOut n4 out

/-! ### the whole functions -/

/-- `process` for `n4` samples: reads channel `c` of the input by `inp c`, and gives the samples of the outputs.  Sample `j`
of output `c` is written for `j < n4` only. -/
abbrev Process (α : Type) := Nat → (Nat → Buf α) → Nat → Buf α

/-- `processInline`, lines 269-298: channel `i` starts at `i*n4` in both buffers; `none`: assertion of line 270 -/
def processInline (be : Backend) (P : Process α) (co : Nat) (inp out : Buf α) (n4 : Nat) : Option (Buf α) :=
  if n4 % be.n = 0 then
    let y := P n4 fun c j => inp (c * n4 + j)
    some (loop (fun c m => loop (fun j m => put m (c * n4 + j) (y c j)) n4 m) co out)
  else none

/-- `processInlineInterleaved`, lines 300-397; `none`: an assertion fails (line 301 or 270).  Line 301 tests
`n4 & ~(N-1)`, which is zero iff `n4 < N`. -/
def processInlineInterleaved (be : Backend) (P : Process α) (ci co : Nat) (inp out junkIn junkOut : Buf α) (n4 : Nat) :
    Option (Buf α) :=
  if n4 < be.n then none
  else
    let bIn := splitInput be ci inp n4 junkIn
    let bOut := if co = 1 then out else junkOut
    (processInline be P co bIn bOut n4).map fun bOut => joinOutput be co bOut n4 out

end Verif.Interleave
