import Verif.Simd
import Mathlib.Tactic.Ring
import Mathlib.Tactic.LinearCombination
import Mathlib.Tactic.FinCases
import Mathlib.Data.Fintype.Basic
import Mathlib.Algebra.Ring.Int.Defs
/-!
# C24, C25, C51, C52, C53: one-sample delay, poles and biquads

Specification: difference equations between streams of samples.  `D x d` is the stream `x` delayed by `d` samples,
silent before its beginning.  The theorems say that the stream of samples which an object produces, block after block,
satisfies the equation at every sample number.
-/
set_option linter.unusedSimpArgs false

namespace Verif.Simd

variable {α : Type}

/-! ### specification -/

/-- the stream `x`, `d` samples late -/
def D [Zero α] (x : Nat → α) (d n : Nat) : α := if d ≤ n then x (n - d) else 0

/-- the stream made of the blocks `out 0`, `out 1`, … -/
def stream {N : Nat} (hN : 0 < N) (out : Nat → V N α) (n : Nat) : α := out (n / N) ⟨n % N, Nat.mod_lt _ hN⟩

/-- `y[n] = x[n] - a[n] * y[n-1]` -/
def IsRPole [Zero α] [Mul α] [Sub α] (x a y : Nat → α) : Prop := ∀ n, y n = x n - a n * D y 1 n

/-- `y[n] = x[n] - a[n] * y[n-1]`, complex numbers as pairs of streams -/
def IsCPole [Zero α] [Mul α] [Add α] [Sub α] (xr xi ar ai yr yi : Nat → α) : Prop :=
  ∀ n, yr n = xr n - (ar n * D yr 1 n - ai n * D yi 1 n) ∧ yi n = xi n - (ar n * D yi 1 n + ai n * D yr 1 n)

/-- `y[n] = b0 x[n] + b1 x[n-1] + b2 x[n-2] - a1 y[n-1] - a2 y[n-2]` -/
def IsBiquad [Zero α] [Mul α] [Add α] [Sub α] (x b0 b1 b2 a1 a2 y : Nat → α) : Prop :=
  ∀ n, y n = b0 n * x n + b1 n * D x 1 n + b2 n * D x 2 n - a1 n * D y 1 n - a2 n * D y 2 n

/-! ### facts on streams -/

@[simp] theorem D_zero [Zero α] (x : Nat → α) (n : Nat) : D x 0 n = x n := by simp [D]

@[simp] theorem D_succ_succ [Zero α] (x : Nat → α) (d n : Nat) : D x (d + 1) (n + 1) = D x d n := by simp [D]

@[simp] theorem D_succ_zero [Zero α] (x : Nat → α) (d : Nat) : D x (d + 1) 0 = 0 := by simp [D]

theorem D_one_add [Zero α] (x : Nat → α) (d n m : Nat) (h : m ≤ n) (hd : m ≤ d) : D x d n = D x (d - m) (n - m) := by
  obtain ⟨a, rfl⟩ := Nat.exists_eq_add_of_le h
  obtain ⟨b, rfl⟩ := Nat.exists_eq_add_of_le hd
  simp [D]
  congr 2; omega

/-- two streams that agree block by block are equal -/
theorem stream_eq {N : Nat} (hN : 0 < N) (out : Nat → V N α) (y : Nat → α) (h : ∀ k (j : Fin N), out k j = y (k * N + j)) :
    stream hN out = y := by
  funext n
  have := h (n / N) ⟨n % N, Nat.mod_lt _ hN⟩
  simp only [stream, this]
  congr 1
  simpa [Nat.mul_comm] using Nat.div_add_mod n N

/-! ### one-sample delay: what a block does -/

/-- what the objects built on `__hv_del1_f` need of it; `last` is the sample that the state remembers -/
structure IsDel1 [Zero α] {N : Nat} (del1 : V N α → V N α → V N α × V N α) (last : V N α → α) : Prop where
  first : ∀ s x (h : 0 < N), (del1 s x).2 ⟨0, h⟩ = last s
  next : ∀ s x j (h : j + 1 < N), (del1 s x).2 ⟨j + 1, h⟩ = x ⟨j, by omega⟩
  keep : ∀ s x (h : N - 1 < N), last (del1 s x).1 = x ⟨N - 1, h⟩
  init : last zero = 0

theorem del1None_is [Zero α] : IsDel1 (α := α) del1None (fun s => s 0) :=
  ⟨fun _ _ _ => rfl, fun _ _ j h => by omega, fun _ _ _ => rfl, rfl⟩

theorem del1Sse_is [Zero α] : IsDel1 (α := α) del1Sse (fun s => s 3) := by
  refine ⟨fun s x _ => ?_, fun s x j h => ?_, fun _ _ _ => rfl, rfl⟩
  · rfl
  · obtain rfl | rfl | rfl : j = 0 ∨ j = 1 ∨ j = 2 := by omega
    all_goals rfl

theorem del1Neon_is [Zero α] : IsDel1 (α := α) del1Neon (fun s => s 3) := by
  refine ⟨fun s x _ => ?_, fun s x j h => ?_, fun _ _ _ => rfl, rfl⟩
  · rfl
  · obtain rfl | rfl | rfl : j = 0 ∨ j = 1 ∨ j = 2 := by omega
    all_goals rfl

theorem del1Avx21_is [Zero α] : IsDel1 (α := α) (del1AvxWith 0x21) (fun s => s 4) := by
  refine ⟨fun s x _ => ?_, fun s x j h => ?_, fun _ _ _ => rfl, rfl⟩
  · simp [del1AvxWith, permute, permute2f128, sel128, blend, Nat.testBit]
  · have : j = 0 ∨ j = 1 ∨ j = 2 ∨ j = 3 ∨ j = 4 ∨ j = 5 ∨ j = 6 := by omega
    rcases this with rfl | rfl | rfl | rfl | rfl | rfl | rfl
    all_goals simp [del1AvxWith, permute, permute2f128, sel128, blend, Nat.testBit]

/-- a delay of a stream that is already `d` late -/
theorem IsDel1.step [Zero α] {N : Nat} {del1 : V N α → V N α → V N α × V N α} {last : V N α → α} (I : IsDel1 del1 last)
    (hN : 0 < N) (x : Nat → α) (d k : Nat) (s v : V N α) (hs : last s = D x (d + 1) (k * N))
    (hv : ∀ j : Fin N, v j = D x d (k * N + j)) :
    (∀ j : Fin N, (del1 s v).2 j = D x (d + 1) (k * N + j)) ∧ last (del1 s v).1 = D x (d + 1) ((k + 1) * N) := by
  constructor
  · rintro ⟨j, hj⟩
    cases j with
    | zero => rw [I.first, hs]; rfl
    | succ j => rw [I.next, hv]; simp only [← Nat.add_assoc, D_succ_succ]
  · rw [I.keep _ _ (by omega), hv]
    have : (k + 1) * N = (k * N + (N - 1)) + 1 := by rw [Nat.add_mul]; omega
    rw [this, D_succ_succ]

theorem del1_state [Zero α] {N : Nat} {del1 : V N α → V N α → V N α × V N α} {last : V N α → α} (I : IsDel1 del1 last)
    (hN : 0 < N) (x : Nat → α) (k : Nat) : last (stateAt del1 zero (block N x) k) = D x 1 (k * N) := by
  induction k with
  | zero => simp [stateAt, I.init]
  | succ k ih => exact (I.step hN x 0 k _ (block N x k) ih (by simp [block])).2

theorem del1_stream [Zero α] {N : Nat} {del1 : V N α → V N α → V N α × V N α} {last : V N α → α} (I : IsDel1 del1 last)
    (hN : 0 < N) (x : Nat → α) : stream hN (outAt del1 zero (block N x)) = D x 1 :=
  stream_eq hN _ _ fun k j => (I.step hN x 0 k _ (block N x k) (del1_state I hN x k) (by simp [block])).1 j

/-! ### C24 -/

/-- **C24**, one sample at a time: the output is the input of one sample ago, and 0 first -/
theorem del1_scalar [Zero α] (x : Nat → α) : stream (by decide) (outAt del1None zero (block 1 x)) = D x 1 :=
  del1_stream del1None_is _ x

/-- **C24**, SSE -/
theorem del1_sse [Zero α] (x : Nat → α) : stream (by decide) (outAt del1Sse zero (block 4 x)) = D x 1 :=
  del1_stream del1Sse_is _ x

/-- **C24**, NEON -/
theorem del1_neon [Zero α] (x : Nat → α) : stream (by decide) (outAt del1Neon zero (block 4 x)) = D x 1 :=
  del1_stream del1Neon_is _ x

/-- **C24** for AVX, were the constant of HvSignalDel1.h:37 the `0x21` of HvSignalBiquad.c -/
theorem del1_avx_with_0x21 [Zero α] (x : Nat → α) :
    stream (by decide) (outAt (del1AvxWith 0x21) zero (block 8 x)) = D x 1 :=
  del1_stream del1Avx21_is _ x

theorem del1Avx_eq [Zero α] (s v : V 8 α) :
    del1Avx s v = ((del1AvxWith 0x21 s v).1, fun j => if j = 4 then s 0 else (del1AvxWith 0x21 s v).2 j) := by
  refine Prod.ext rfl (funext fun j => ?_)
  fin_cases j <;> simp [del1Avx, del1AvxWith, permute, permute2f128, sel128, blend, Nat.testBit]

theorem stateAt_congr {σ ι ω : Type} (f g : σ → ι → σ × ω) (s : σ) (inp : Nat → ι) (h : ∀ s i, (f s i).1 = (g s i).1)
    (k : Nat) : stateAt f s inp k = stateAt g s inp k := by
  induction k with
  | zero => rfl
  | succ k ih => simp only [stateAt, ih, h]

theorem del1Avx_state0 [Zero α] (x : Nat → α) (k : Nat) :
    stateAt del1Avx zero (block 8 x) k 0 = D x 9 (k * 8 + 4) := by
  cases k with
  | zero => rfl
  | succ k =>
    have : D x 9 ((k + 1) * 8 + 4) = x (k * 8 + 3) := by
      simp only [D]
      rw [if_pos (by omega)]
      congr 1; omega
    rw [this]
    rfl

/-- **C24 fails for AVX** exactly so: every eighth sample, the fifth of each block, is nine samples late instead of one -/
theorem del1_avx_is [Zero α] (x : Nat → α) (n : Nat) :
    stream (by decide) (outAt del1Avx zero (block 8 x)) n = if n % 8 = 4 then D x 9 n else D x 1 n := by
  have hs : ∀ k, stateAt del1Avx zero (block 8 x) k = stateAt (del1AvxWith 0x21) zero (block 8 x) k :=
    stateAt_congr _ _ _ _ fun s v => rfl
  have h21 := congrFun (del1_avx_with_0x21 x) n
  simp only [stream, outAt, ← hs] at h21
  simp only [stream, outAt]
  rw [del1Avx_eq]
  dsimp only
  by_cases h : n % 8 = 4
  · rw [if_pos h, if_pos (Fin.ext h), del1Avx_state0]
    congr 1
    omega
  · rw [if_neg h, if_neg (fun e => h (by simpa using congrArg Fin.val e)), h21]

/-- so the delay is wrong for AVX whenever the input is not periodic in this sense: here on the ramp 1, 2, 3, … -/
theorem del1_avx_is_not_a_delay :
    stream (by decide) (outAt del1Avx zero (block 8 fun n => (n : Int) + 1)) ≠ D (fun n => (n : Int) + 1) 1 := by
  intro h
  have := congrFun h 4
  rw [del1_avx_is] at this
  simp [D] at this

/-! ### C25 -/

/-- a solution of the equation, to be compared with the output -/
def rpoleRec [Zero α] [Mul α] [Sub α] (x a : Nat → α) : Nat → α
  | 0 => x 0 - a 0 * 0
  | n + 1 => x (n + 1) - a (n + 1) * rpoleRec x a n

theorem rpoleRec_is [Zero α] [Mul α] [Sub α] (x a : Nat → α) : IsRPole x a (rpoleRec x a) := by
  intro n
  cases n with
  | zero => simp [rpoleRec]
  | succ n => rw [rpoleRec]; simp

/-- the equation at an earlier sample, also before the beginning -/
theorem IsRPole.late [CommRing α] {x a y : Nat → α} (h : IsRPole x a y) (d n : Nat) :
    D y d n = D x d n - D a d n * D y (d + 1) n := by
  by_cases hd : d ≤ n
  · obtain ⟨m, rfl⟩ := Nat.exists_eq_add_of_le hd
    have e1 : D y (d + 1) (d + m) = D y 1 m := by simp only [D]; congr 1 <;> [(apply propext; omega); (congr 1; omega)]
    have e : ∀ u : Nat → α, D u d (d + m) = u m := fun u => by simp [D]
    rw [e, e, e, e1]
    exact h m
  · have e : ∀ u : Nat → α, D u d n = 0 := fun u => by simp [D]; omega
    rw [e, e, e]; ring

theorem IsRPole.unique [CommRing α] {x a y z : Nat → α} (h : IsRPole x a y) (h' : IsRPole x a z) : y = z := by
  funext n
  induction n with
  | zero => rw [h 0, h' 0]; simp
  | succ n ih => rw [h (n + 1), h' (n + 1)]; simp [ih]

theorem rpole_scalar [CommRing α] (x a : Nat → α) :
    IsRPole x a (stream (by decide) (outAt rpoleNone zero fun k => (block 1 x k, block 1 a k))) := by
  have hs : ∀ k, stateAt rpoleNone zero (fun k => (block 1 x k, block 1 a k)) k 0 = D (rpoleRec x a) 1 k := by
    intro k
    induction k with
    | zero => simp [stateAt, zero]
    | succ k ih =>
      simp only [stateAt, rpoleNone, sub, mul, ih, block, D_succ_succ, D_zero]
      simpa using ((rpoleRec_is x a) k).symm
  rw [stream_eq (y := rpoleRec x a)]
  · exact rpoleRec_is x a
  · intro k j
    obtain rfl : j = 0 := Subsingleton.elim _ _
    simp only [outAt, rpoleNone, sub, mul, hs, block]
    simpa using ((rpoleRec_is x a) k).symm

/-- invariant of the four-lane pole before block `k` -/
structure RPole4.Inv [Zero α] (last : V 4 α → α) (x a y : Nat → α) (k : Nat) (o : RPole4 α) : Prop where
  a1 : last o.i8Twk = D a 1 (k * 4)
  a2 : last o.KYibU = D a 2 (k * 4)
  a3 : last o.spa5V = D a 3 (k * 4)
  x1 : last o.hXdb = D x 1 (k * 4)
  x2 : last o.Aj1oK = D x 2 (k * 4)
  x3 : last o.jNX1g = D x 3 (k * 4)
  ym : ∀ j : Fin 4, o.ym j = D y 4 (k * 4 + j)

theorem RPole4.inv_init [Zero α] {del1} {last : V 4 α → α} (I : IsDel1 del1 last) (x a y : Nat → α) :
    (RPole4.init (α := α)).Inv last x a y 0 := by
  refine ⟨?_, ?_, ?_, ?_, ?_, ?_, fun j => ?_⟩
  all_goals first | (simp [RPole4.init, I.init]; done) | skip
  have : ¬ 4 ≤ 0 * 4 + (j : Nat) := by omega
  simp only [RPole4.init, zero, D, if_neg this]

theorem rpole4_step [CommRing α] {del1} {last : V 4 α → α} (I : IsDel1 del1 last) {x a y : Nat → α} (h : IsRPole x a y)
    (k : Nat) (o : RPole4 α) (hi : o.Inv last x a y k) :
    (rpole4 del1 o (block 4 x k, block 4 a k)).1.Inv last x a y (k + 1) ∧
    ∀ j : Fin 4, (rpole4 del1 o (block 4 x k, block 4 a k)).2 j = y (k * 4 + j) := by
  have A1 := I.step (by decide) a 0 k o.i8Twk (block 4 a k) hi.a1 (by simp [block])
  have A2 := I.step (by decide) a 1 k o.KYibU _ hi.a2 A1.1
  have A3 := I.step (by decide) a 2 k o.spa5V _ hi.a3 A2.1
  have X1 := I.step (by decide) x 0 k o.hXdb (block 4 x k) hi.x1 (by simp [block])
  have X2 := I.step (by decide) x 1 k o.Aj1oK _ hi.x2 X1.1
  have X3 := I.step (by decide) x 2 k o.jNX1g _ hi.x3 X2.1
  have out : ∀ j : Fin 4, (rpole4 del1 o (block 4 x k, block 4 a k)).2 j = y (k * 4 + j) := by
    intro j
    simp only [rpole4, fma, sub, mul, A1.1, A2.1, A3.1, X1.1, X2.1, X3.1, hi.ym, block]
    have h0 := h.late 0 (k * 4 + j)
    have h1 := h.late 1 (k * 4 + j)
    have h2 := h.late 2 (k * 4 + j)
    have h3 := h.late 3 (k * 4 + j)
    simp only [D_zero] at h0
    rw [h0, h1, h2, h3]
    ring
  refine ⟨⟨A1.2, A2.2, A3.2, X1.2, X2.2, X3.2, fun j => ?_⟩, out⟩
  have e : (k + 1) * 4 + (j : Nat) - 4 = k * 4 + j := by omega
  have : D y 4 ((k + 1) * 4 + j) = y (k * 4 + j) := by simp only [D]; rw [if_pos (by omega), e]
  rw [this, ← out j]
  rfl

theorem rpole4_stream [CommRing α] {del1} {last : V 4 α → α} (I : IsDel1 del1 last) (x a : Nat → α) :
    IsRPole x a (stream (by decide) (outAt (rpole4 del1) .init fun k => (block 4 x k, block 4 a k))) := by
  have hy := rpoleRec_is x a
  have inv : ∀ k, (stateAt (rpole4 del1) .init (fun k => (block 4 x k, block 4 a k)) k).Inv last x a (rpoleRec x a) k := by
    intro k
    induction k with
    | zero => exact RPole4.inv_init I _ _ _
    | succ k ih => exact (rpole4_step I hy k _ ih).1
  rw [stream_eq (y := rpoleRec x a)]
  · exact hy
  · exact fun k j => (rpole4_step I hy k _ (inv k)).2 j

/-- **C25**, SSE: the output of the four-lane pole satisfies the difference equation -/
theorem rpole_sse [CommRing α] (x a : Nat → α) :
    IsRPole x a (stream (by decide) (outAt (rpole4 del1Sse) .init fun k => (block 4 x k, block 4 a k))) :=
  rpole4_stream del1Sse_is x a

/-- **C25**, NEON -/
theorem rpole_neon [CommRing α] (x a : Nat → α) :
    IsRPole x a (stream (by decide) (outAt (rpole4 del1Neon) .init fun k => (block 4 x k, block 4 a k))) :=
  rpole4_stream del1Neon_is x a

/-- invariant of the eight-lane pole before block `k` -/
structure RPole8.Inv [Zero α] (last : V 8 α → α) (x a y : Nat → α) (k : Nat) (o : RPole8 α) : Prop where
  a1 : last o.a1 = D a 1 (k * 8)
  a2 : last o.a2 = D a 2 (k * 8)
  a3 : last o.a3 = D a 3 (k * 8)
  a4 : last o.a4 = D a 4 (k * 8)
  a5 : last o.a5 = D a 5 (k * 8)
  a6 : last o.a6 = D a 6 (k * 8)
  a7 : last o.a7 = D a 7 (k * 8)
  x1 : last o.x1 = D x 1 (k * 8)
  x2 : last o.x2 = D x 2 (k * 8)
  x3 : last o.x3 = D x 3 (k * 8)
  x4 : last o.x4 = D x 4 (k * 8)
  x5 : last o.x5 = D x 5 (k * 8)
  x6 : last o.x6 = D x 6 (k * 8)
  x7 : last o.x7 = D x 7 (k * 8)
  ym : ∀ j : Fin 8, o.ym j = D y 8 (k * 8 + j)

theorem RPole8.inv_init [Zero α] {del1} {last : V 8 α → α} (I : IsDel1 del1 last) (x a y : Nat → α) :
    (RPole8.init (α := α)).Inv last x a y 0 := by
  refine ⟨?_, ?_, ?_, ?_, ?_, ?_, ?_, ?_, ?_, ?_, ?_, ?_, ?_, ?_, fun j => ?_⟩
  all_goals first | (simp [RPole8.init, I.init]; done) | skip
  have : ¬ 8 ≤ 0 * 8 + (j : Nat) := by omega
  simp only [RPole8.init, zero, D, if_neg this]

theorem rpole8_step [CommRing α] {del1} {last : V 8 α → α} (I : IsDel1 del1 last) {x a y : Nat → α} (h : IsRPole x a y)
    (k : Nat) (o : RPole8 α) (hi : o.Inv last x a y k) :
    (rpole8 del1 o (block 8 x k, block 8 a k)).1.Inv last x a y (k + 1) ∧
    ∀ j : Fin 8, (rpole8 del1 o (block 8 x k, block 8 a k)).2 j = y (k * 8 + j) := by
  have A1 := I.step (by decide) a 0 k o.a1 (block 8 a k) hi.a1 (by simp [block])
  have A2 := I.step (by decide) a 1 k o.a2 _ hi.a2 A1.1
  have A3 := I.step (by decide) a 2 k o.a3 _ hi.a3 A2.1
  have A4 := I.step (by decide) a 3 k o.a4 _ hi.a4 A3.1
  have A5 := I.step (by decide) a 4 k o.a5 _ hi.a5 A4.1
  have A6 := I.step (by decide) a 5 k o.a6 _ hi.a6 A5.1
  have A7 := I.step (by decide) a 6 k o.a7 _ hi.a7 A6.1
  have X1 := I.step (by decide) x 0 k o.x1 (block 8 x k) hi.x1 (by simp [block])
  have X2 := I.step (by decide) x 1 k o.x2 _ hi.x2 X1.1
  have X3 := I.step (by decide) x 2 k o.x3 _ hi.x3 X2.1
  have X4 := I.step (by decide) x 3 k o.x4 _ hi.x4 X3.1
  have X5 := I.step (by decide) x 4 k o.x5 _ hi.x5 X4.1
  have X6 := I.step (by decide) x 5 k o.x6 _ hi.x6 X5.1
  have X7 := I.step (by decide) x 6 k o.x7 _ hi.x7 X6.1
  have out : ∀ j : Fin 8, (rpole8 del1 o (block 8 x k, block 8 a k)).2 j = y (k * 8 + j) := by
    intro j
    simp only [rpole8, fma, sub, mul, A1.1, A2.1, A3.1, A4.1, A5.1, A6.1, A7.1, X1.1, X2.1, X3.1, X4.1, X5.1, X6.1, X7.1,
      hi.ym, block]
    have h0 := h.late 0 (k * 8 + j)
    simp only [D_zero] at h0
    rw [h0, h.late 1, h.late 2, h.late 3, h.late 4, h.late 5, h.late 6, h.late 7]
    ring
  refine ⟨⟨A1.2, A2.2, A3.2, A4.2, A5.2, A6.2, A7.2, X1.2, X2.2, X3.2, X4.2, X5.2, X6.2, X7.2, fun j => ?_⟩, out⟩
  have e : (k + 1) * 8 + (j : Nat) - 8 = k * 8 + j := by omega
  have : D y 8 ((k + 1) * 8 + j) = y (k * 8 + j) := by simp only [D]; rw [if_pos (by omega), e]
  rw [this, ← out j]
  rfl

/-- **C25** for AVX, were the constant of HvSignalDel1.h:37 `0x21` -/
theorem rpole_avx_with_0x21 [CommRing α] (x a : Nat → α) :
    IsRPole x a (stream (by decide) (outAt (rpole8 (del1AvxWith 0x21)) .init fun k => (block 8 x k, block 8 a k))) := by
  have hy := rpoleRec_is x a
  have inv : ∀ k, (stateAt (rpole8 (del1AvxWith 0x21)) .init (fun k => (block 8 x k, block 8 a k)) k).Inv (fun s => s 4) x a
      (rpoleRec x a) k := by
    intro k
    induction k with
    | zero => exact RPole8.inv_init del1Avx21_is _ _ _
    | succ k ih => exact (rpole8_step del1Avx21_is hy k _ ih).1
  rw [stream_eq (y := rpoleRec x a)]
  · exact hy
  · exact fun k j => (rpole8_step del1Avx21_is hy k _ (inv k)).2 j

/-- **C25 fails for AVX**: with coefficient −1 the pole sums its input, but at sample 4 of the input 1, 1, 1, … the
program's object gives 1 instead of 5 -/
theorem rpole_avx_is_not_a_pole :
    ¬ IsRPole (fun _ => 1) (fun _ => -1) (stream (by decide) (outAt (rpole8 del1Avx) .init fun k =>
        (block 8 (fun _ => (1 : Int)) k, block 8 (fun _ => (-1 : Int)) k))) := by
  intro h
  have := h 4
  revert this
  decide

/-! ### C51 -/

/-- a solution of the complex equation -/
def cpoleRec [Zero α] [Mul α] [Add α] [Sub α] (xr xi ar ai : Nat → α) : Nat → α × α
  | 0 => (xr 0 - (ar 0 * 0 - ai 0 * 0), xi 0 - (ar 0 * 0 + ai 0 * 0))
  | n + 1 =>
    let p := cpoleRec xr xi ar ai n
    (xr (n + 1) - (ar (n + 1) * p.1 - ai (n + 1) * p.2), xi (n + 1) - (ar (n + 1) * p.2 + ai (n + 1) * p.1))

theorem cpoleRec_is [Zero α] [Mul α] [Add α] [Sub α] (xr xi ar ai : Nat → α) :
    IsCPole xr xi ar ai (fun n => (cpoleRec xr xi ar ai n).1) (fun n => (cpoleRec xr xi ar ai n).2) := by
  intro n
  cases n with
  | zero => simp [cpoleRec]
  | succ n => simp only [cpoleRec, D_succ_succ, D_zero, and_self]

theorem IsCPole.late [CommRing α] {xr xi ar ai yr yi : Nat → α} (h : IsCPole xr xi ar ai yr yi) (d n : Nat) :
    D yr d n = D xr d n - (D ar d n * D yr (d + 1) n - D ai d n * D yi (d + 1) n) ∧
    D yi d n = D xi d n - (D ar d n * D yi (d + 1) n + D ai d n * D yr (d + 1) n) := by
  by_cases hd : d ≤ n
  · obtain ⟨m, rfl⟩ := Nat.exists_eq_add_of_le hd
    have e1 : ∀ y : Nat → α, D y (d + 1) (d + m) = D y 1 m := fun y => by
      simp only [D]; congr 1 <;> [(apply propext; omega); (congr 1; omega)]
    have e : ∀ u : Nat → α, D u d (d + m) = u m := fun u => by simp [D]
    simp only [e, e1]
    exact h m
  · have e : ∀ u : Nat → α, D u d n = 0 := fun u => by simp [D]; omega
    simp only [e]; constructor <;> ring

/-- **C51**, one sample at a time -/
theorem cpole_scalar [CommRing α] (xr xi ar ai : Nat → α) :
    let out := outAt cpoleNone (zero, zero) fun k => ⟨block 1 xr k, block 1 xi k, block 1 ar k, block 1 ai k⟩
    IsCPole xr xi ar ai (stream (by decide) fun k => (out k).1) (stream (by decide) fun k => (out k).2) := by
  intro out
  have hy := cpoleRec_is xr xi ar ai
  have hs : ∀ k, (stateAt cpoleNone (zero, zero) (fun k => ⟨block 1 xr k, block 1 xi k, block 1 ar k, block 1 ai k⟩) k).1 0 =
      D (fun n => (cpoleRec xr xi ar ai n).1) 1 k ∧
      (stateAt cpoleNone (zero, zero) (fun k => ⟨block 1 xr k, block 1 xi k, block 1 ar k, block 1 ai k⟩) k).2 0 =
      D (fun n => (cpoleRec xr xi ar ai n).2) 1 k := by
    intro k
    induction k with
    | zero => simp [stateAt, zero]
    | succ k ih =>
      have h := hy k
      simp only [stateAt, cpoleNone, sub, mul, add, ih.1, ih.2, block, D_succ_succ, D_zero]
      simpa using And.intro h.1.symm h.2.symm
  rw [stream_eq (y := fun n => (cpoleRec xr xi ar ai n).1), stream_eq (y := fun n => (cpoleRec xr xi ar ai n).2)]
  · exact hy
  · intro k j
    obtain rfl : j = 0 := Subsingleton.elim _ _
    simp only [out, outAt, cpoleNone, sub, mul, add, hs k, block]
    simpa using (hy k).2.symm
  · intro k j
    obtain rfl : j = 0 := Subsingleton.elim _ _
    simp only [out, outAt, cpoleNone, sub, mul, add, hs k, block]
    simpa using (hy k).1.symm

/-- invariant of the four-lane complex pole before block `k` -/
structure CPole4.Inv [Zero α] (last : V 4 α → α) (xr xi ar ai yr yi : Nat → α) (k : Nat) (o : CPole4 α) : Prop where
  xr1 : last o.xr1 = D xr 1 (k * 4)
  xi1 : last o.xi1 = D xi 1 (k * 4)
  xr2 : last o.xr2 = D xr 2 (k * 4)
  xi2 : last o.xi2 = D xi 2 (k * 4)
  ar1 : last o.ar1 = D ar 1 (k * 4)
  ai1 : last o.ai1 = D ai 1 (k * 4)
  xr3 : last o.xr3 = D xr 3 (k * 4)
  xi3 : last o.xi3 = D xi 3 (k * 4)
  ar2 : last o.ar2 = D ar 2 (k * 4)
  ai2 : last o.ai2 = D ai 2 (k * 4)
  ar3 : last o.ar3 = D ar 3 (k * 4)
  ai3 : last o.ai3 = D ai 3 (k * 4)
  ymr : ∀ j : Fin 4, o.ymr j = D yr 4 (k * 4 + j)
  ymi : ∀ j : Fin 4, o.ymi j = D yi 4 (k * 4 + j)

theorem CPole4.inv_init [Zero α] {del1} {last : V 4 α → α} (I : IsDel1 del1 last) (xr xi ar ai yr yi : Nat → α) :
    (CPole4.init (α := α)).Inv last xr xi ar ai yr yi 0 := by
  refine ⟨?_, ?_, ?_, ?_, ?_, ?_, ?_, ?_, ?_, ?_, ?_, ?_, fun j => ?_, fun j => ?_⟩
  all_goals first | (simp [CPole4.init, I.init]; done) | skip
  all_goals
    have : ¬ 4 ≤ 0 * 4 + (j : Nat) := by omega
    simp only [CPole4.init, zero, D, if_neg this]

theorem cpole4_step [CommRing α] {del1} {last : V 4 α → α} (I : IsDel1 del1 last) {xr xi ar ai yr yi : Nat → α}
    (h : IsCPole xr xi ar ai yr yi) (k : Nat) (o : CPole4 α) (hi : o.Inv last xr xi ar ai yr yi k) :
    let r := cpole4 del1 o ⟨block 4 xr k, block 4 xi k, block 4 ar k, block 4 ai k⟩
    r.1.Inv last xr xi ar ai yr yi (k + 1) ∧
    ∀ j : Fin 4, r.2.1 j = yr (k * 4 + j) ∧ r.2.2 j = yi (k * 4 + j) := by
  intro r
  have R1 := I.step (by decide) xr 0 k o.xr1 (block 4 xr k) hi.xr1 (by simp [block])
  have R2 := I.step (by decide) xr 1 k o.xr2 _ hi.xr2 R1.1
  have R3 := I.step (by decide) xr 2 k o.xr3 _ hi.xr3 R2.1
  have S1 := I.step (by decide) xi 0 k o.xi1 (block 4 xi k) hi.xi1 (by simp [block])
  have S2 := I.step (by decide) xi 1 k o.xi2 _ hi.xi2 S1.1
  have S3 := I.step (by decide) xi 2 k o.xi3 _ hi.xi3 S2.1
  have A1 := I.step (by decide) ar 0 k o.ar1 (block 4 ar k) hi.ar1 (by simp [block])
  have A2 := I.step (by decide) ar 1 k o.ar2 _ hi.ar2 A1.1
  have A3 := I.step (by decide) ar 2 k o.ar3 _ hi.ar3 A2.1
  have B1 := I.step (by decide) ai 0 k o.ai1 (block 4 ai k) hi.ai1 (by simp [block])
  have B2 := I.step (by decide) ai 1 k o.ai2 _ hi.ai2 B1.1
  have B3 := I.step (by decide) ai 2 k o.ai3 _ hi.ai3 B2.1
  have out : ∀ j : Fin 4, r.2.1 j = yr (k * 4 + j) ∧ r.2.2 j = yi (k * 4 + j) := by
    intro j
    simp only [r, cpole4, fma, sub, mul, add, R1.1, R2.1, R3.1, S1.1, S2.1, S3.1, A1.1, A2.1, A3.1, B1.1, B2.1, B3.1,
      hi.ymr, hi.ymi, block]
    have h0 := h.late 0 (k * 4 + j)
    simp only [D_zero] at h0
    have h1 := h.late 1 (k * 4 + j)
    have h2 := h.late 2 (k * 4 + j)
    have h3 := h.late 3 (k * 4 + j)
    constructor
    · rw [h0.1, h1.1, h1.2, h2.1, h2.2, h3.1, h3.2]; ring
    · rw [h0.2, h1.1, h1.2, h2.1, h2.2, h3.1, h3.2]; ring
  have e : ∀ (y : Nat → α) (j : Fin 4), D y 4 ((k + 1) * 4 + j) = y (k * 4 + j) := fun y j => by
    have e : (k + 1) * 4 + (j : Nat) - 4 = k * 4 + j := by omega
    simp only [D]; rw [if_pos (by omega), e]
  refine ⟨⟨R1.2, S1.2, R2.2, S2.2, A1.2, B1.2, R3.2, S3.2, A2.2, B2.2, A3.2, B3.2, fun j => ?_, fun j => ?_⟩, out⟩
  · rw [e, ← (out j).1]; rfl
  · rw [e, ← (out j).2]; rfl

theorem cpole4_stream [CommRing α] {del1} {last : V 4 α → α} (I : IsDel1 del1 last) (xr xi ar ai : Nat → α) :
    let out := outAt (cpole4 del1) .init fun k => ⟨block 4 xr k, block 4 xi k, block 4 ar k, block 4 ai k⟩
    IsCPole xr xi ar ai (stream (by decide) fun k => (out k).1) (stream (by decide) fun k => (out k).2) := by
  intro out
  have hy := cpoleRec_is xr xi ar ai
  have inv : ∀ k, (stateAt (cpole4 del1) .init (fun k => ⟨block 4 xr k, block 4 xi k, block 4 ar k, block 4 ai k⟩) k).Inv
      last xr xi ar ai (fun n => (cpoleRec xr xi ar ai n).1) (fun n => (cpoleRec xr xi ar ai n).2) k := by
    intro k
    induction k with
    | zero => exact CPole4.inv_init I _ _ _ _ _ _
    | succ k ih => exact (cpole4_step I hy k _ ih).1
  rw [stream_eq (y := fun n => (cpoleRec xr xi ar ai n).1), stream_eq (y := fun n => (cpoleRec xr xi ar ai n).2)]
  · exact hy
  · exact fun k j => ((cpole4_step I hy k _ (inv k)).2 j).2
  · exact fun k j => ((cpole4_step I hy k _ (inv k)).2 j).1

/-- **C51**, SSE -/
theorem cpole_sse [CommRing α] (xr xi ar ai : Nat → α) :
    let out := outAt (cpole4 del1Sse) .init fun k => ⟨block 4 xr k, block 4 xi k, block 4 ar k, block 4 ai k⟩
    IsCPole xr xi ar ai (stream (by decide) fun k => (out k).1) (stream (by decide) fun k => (out k).2) :=
  cpole4_stream del1Sse_is xr xi ar ai

/-- **C51**, NEON -/
theorem cpole_neon [CommRing α] (xr xi ar ai : Nat → α) :
    let out := outAt (cpole4 del1Neon) .init fun k => ⟨block 4 xr k, block 4 xi k, block 4 ar k, block 4 ai k⟩
    IsCPole xr xi ar ai (stream (by decide) fun k => (out k).1) (stream (by decide) fun k => (out k).2) :=
  cpole4_stream del1Neon_is xr xi ar ai

/-- **C51 fails for AVX**: the imaginary output is never written -/
theorem cpole_avx_second_output_unwritten [CommRing α] (o : CPole8 α) (i : CIn 8 α) : (cpole8 del1Avx o i).2.2 = none := rfl

/-- and what is written to the real output is the imaginary part: with coefficient 0, where the pole must pass its input
on, the real output receives the imaginary input, whatever came before -/
theorem cpole_avx_real_output_is_imaginary [CommRing α] (o : CPole8 α) (xr xi : V 8 α) :
    (cpole8 del1Avx o ⟨xr, xi, zero, zero⟩).2.1 = some xi := by
  have z1 : ∀ u : V 8 α, mul zero u = zero := fun u => funext fun j => zero_mul _
  have z2 : ∀ u : V 8 α, mul u zero = zero := fun u => funext fun j => mul_zero _
  have z3 : ∀ u : V 8 α, sub u zero = u := fun u => funext fun j => sub_zero _
  have z4 : ∀ u : V 8 α, add u zero = u := fun u => funext fun j => add_zero _
  have z5 : ∀ u v : V 8 α, fma u zero v = v := fun u v => funext fun j => by simp [fma, zero]
  have z6 : ∀ u v : V 8 α, fma zero u v = v := fun u v => funext fun j => by simp [fma, zero]
  simp only [cpole8, z1, z2, z3, z4, z5, z6]

/-! ### C52 -/

/-- two steps of a solution of the biquad equation: samples `n` and `n - 1` -/
def biquadRec [Zero α] [Mul α] [Add α] [Sub α] (x b0 b1 b2 a1 a2 : Nat → α) : Nat → α × α
  | 0 => (b0 0 * x 0 + b1 0 * 0 + b2 0 * 0 - a1 0 * 0 - a2 0 * 0, 0)
  | n + 1 =>
    let p := biquadRec x b0 b1 b2 a1 a2 n
    (b0 (n + 1) * x (n + 1) + b1 (n + 1) * x n + b2 (n + 1) * D x 1 n - a1 (n + 1) * p.1 - a2 (n + 1) * p.2, p.1)

theorem biquadRec_is [Zero α] [Mul α] [Add α] [Sub α] (x b0 b1 b2 a1 a2 : Nat → α) :
    IsBiquad x b0 b1 b2 a1 a2 (fun n => (biquadRec x b0 b1 b2 a1 a2 n).1) := by
  have hp : ∀ n, (biquadRec x b0 b1 b2 a1 a2 n).2 = D (fun n => (biquadRec x b0 b1 b2 a1 a2 n).1) 1 n := by
    intro n
    cases n with
    | zero => simp [biquadRec]
    | succ n => simp [biquadRec]
  intro n
  cases n with
  | zero => simp [biquadRec]
  | succ n => simp only [biquadRec, D_succ_succ, D_zero, hp]

/-- the block of inputs `k` of a biquad -/
def bin (N : Nat) (x b0 b1 b2 a1 a2 : Nat → α) (k : Nat) : BIn N α :=
  ⟨block N x k, block N b0 k, block N b1 k, block N b2 k, block N a1 k, block N a2 k⟩

/-- **C52**, one sample at a time -/
theorem biquad_scalar [CommRing α] (x b0 b1 b2 a1 a2 : Nat → α) :
    IsBiquad x b0 b1 b2 a1 a2 (stream (by decide) (outAt biquadNone ⟨0, 0, 0, 0⟩ (bin 1 x b0 b1 b2 a1 a2))) := by
  have hy := biquadRec_is x b0 b1 b2 a1 a2
  generalize hY : (fun n => (biquadRec x b0 b1 b2 a1 a2 n).1) = y at hy
  have hs : ∀ k, stateAt biquadNone ⟨0, 0, 0, 0⟩ (bin 1 x b0 b1 b2 a1 a2) k = ⟨D x 1 k, D x 2 k, D y 1 k, D y 2 k⟩ := by
    intro k
    induction k with
    | zero => simp [stateAt]
    | succ k ih =>
      simp only [stateAt, biquadNone, ih, bin, block, D_succ_succ, D_zero]
      congr 1
      · simp
      · rw [hy k]; simp; ring
  rw [stream_eq (y := y)]
  · exact hy
  · intro k j
    obtain rfl : j = 0 := Subsingleton.elim _ _
    simp only [outAt, biquadNone, hs, bin, block]
    have := hy k
    simp at this ⊢
    rw [this]; ring

theorem D_at [Zero α] (x : Nat → α) (d n m : Nat) (h : n = m + d) : D x d n = x m := by
  subst h; simp [D]

/-- invariant of the four-lane biquad before block `k` -/
def Biquad4Inv [Zero α] (x y : Nat → α) (k : Nat) (o : BiquadV 4 α) : Prop :=
  o.x 3 = D x 1 (k * 4) ∧ o.x 2 = D x 2 (k * 4) ∧ o.ym1 = D y 1 (k * 4) ∧ o.ym2 = D y 2 (k * 4)

theorem biquad4_tail [CommRing α] {x b0 b1 b2 a1 a2 y : Nat → α} (h : IsBiquad x b0 b1 b2 a1 a2 y) (k : Nat)
    (o : BiquadV 4 α) (hi : Biquad4Inv x y k o) (e : V 4 α)
    (he : ∀ j : Fin 4, e j = b0 (k * 4 + j) * x (k * 4 + j) + b1 (k * 4 + j) * D x 1 (k * 4 + j) +
      b2 (k * 4 + j) * D x 2 (k * 4 + j)) :
    let r := biquadTail4 o (bin 4 x b0 b1 b2 a1 a2 k) e
    Biquad4Inv x y (k + 1) r.1 ∧ ∀ j : Fin 4, r.2 j = y (k * 4 + j) := by
  obtain ⟨-, -, h1, h2⟩ := hi
  have y0 : e 0 - o.ym1 * a1 (k * 4 + 0) - o.ym2 * a2 (k * 4 + 0) = y (k * 4) := by
    rw [he 0, h1, h2, h (k * 4)]; simp; ring
  have y1 : e 1 - y (k * 4) * a1 (k * 4 + 1) - o.ym1 * a2 (k * 4 + 1) = y (k * 4 + 1) := by
    rw [he 1, h1, h (k * 4 + 1)]
    have := D_at y 1 (k * 4 + 1) (k * 4) rfl
    have e2 : D y 2 (k * 4 + 1) = D y 1 (k * 4) := by simp
    rw [this, e2]; simp; ring
  have y2 : e 2 - y (k * 4 + 1) * a1 (k * 4 + 2) - y (k * 4) * a2 (k * 4 + 2) = y (k * 4 + 2) := by
    rw [he 2, h (k * 4 + 2), D_at y 1 (k * 4 + 2) (k * 4 + 1) rfl, D_at y 2 (k * 4 + 2) (k * 4) rfl]; simp; ring
  have y3 : e 3 - y (k * 4 + 2) * a1 (k * 4 + 3) - y (k * 4 + 1) * a2 (k * 4 + 3) = y (k * 4 + 3) := by
    rw [he 3, h (k * 4 + 3), D_at y 1 (k * 4 + 3) (k * 4 + 2) rfl, D_at y 2 (k * 4 + 3) (k * 4 + 1) rfl]; simp; ring
  have hr : biquadTail4 o (bin 4 x b0 b1 b2 a1 a2 k) e =
      (⟨block 4 x k, y (k * 4 + 3), y (k * 4 + 2)⟩, ![y (k * 4), y (k * 4 + 1), y (k * 4 + 2), y (k * 4 + 3)]) := by
    have c0 : ((0 : Fin 4) : Nat) = 0 := rfl
    have c1 : ((1 : Fin 4) : Nat) = 1 := rfl
    have c2 : ((2 : Fin 4) : Nat) = 2 := rfl
    have c3 : ((3 : Fin 4) : Nat) = 3 := rfl
    simp only [biquadTail4, bin, block, c0, c1, c2, c3, y0, y1, y2, y3]
  intro r
  have : r = _ := hr
  rw [this]
  refine ⟨⟨?_, ?_, ?_, ?_⟩, fun j => ?_⟩
  · rw [D_at x 1 _ (k * 4 + 3) (by omega)]; rfl
  · rw [D_at x 2 _ (k * 4 + 2) (by omega)]; rfl
  · exact (D_at y 1 _ (k * 4 + 3) (by omega)).symm
  · exact (D_at y 2 _ (k * 4 + 2) (by omega)).symm
  · fin_cases j <;> rfl

theorem biquad4_stream [CommRing α] (f : BiquadV 4 α → BIn 4 α → BiquadV 4 α × V 4 α) (x b0 b1 b2 a1 a2 : Nat → α)
    (hf : ∀ y o k, Biquad4Inv x y k o → ∃ e : V 4 α, f o (bin 4 x b0 b1 b2 a1 a2 k) =
        biquadTail4 o (bin 4 x b0 b1 b2 a1 a2 k) e ∧
      ∀ j : Fin 4, e j = b0 (k * 4 + j) * x (k * 4 + j) + b1 (k * 4 + j) * D x 1 (k * 4 + j) +
        b2 (k * 4 + j) * D x 2 (k * 4 + j)) :
    IsBiquad x b0 b1 b2 a1 a2 (stream (by decide) (outAt f ⟨zero, 0, 0⟩ (bin 4 x b0 b1 b2 a1 a2))) := by
  have hy := biquadRec_is x b0 b1 b2 a1 a2
  generalize hY : (fun n => (biquadRec x b0 b1 b2 a1 a2 n).1) = y at hy
  have inv : ∀ k, Biquad4Inv x y k (stateAt f ⟨zero, 0, 0⟩ (bin 4 x b0 b1 b2 a1 a2) k) := by
    intro k
    induction k with
    | zero => simp [Biquad4Inv, stateAt, zero]
    | succ k ih =>
      obtain ⟨e, h1, h2⟩ := hf y _ k ih
      rw [stateAt, h1]
      exact (biquad4_tail hy k _ ih e h2).1
  rw [stream_eq (y := y)]
  · exact hy
  · intro k j
    obtain ⟨e, h1, h2⟩ := hf y _ k (inv k)
    rw [outAt, h1]
    exact (biquad4_tail hy k _ (inv k) e h2).2 j

/-- **C52**, SSE -/
theorem biquad_sse [CommRing α] (x b0 b1 b2 a1 a2 : Nat → α) :
    IsBiquad x b0 b1 b2 a1 a2 (stream (by decide) (outAt biquadSse ⟨zero, 0, 0⟩ (bin 4 x b0 b1 b2 a1 a2))) := by
  refine biquad4_stream _ _ _ _ _ _ _ fun y o k hi => ⟨_, rfl, fun j => ?_⟩
  obtain ⟨h1, h2, -, -⟩ := hi
  have e3 : D x 2 (k * 4 + 1) = o.x 3 := by rw [h1]; simp
  have d2 := D_at x 1 (k * 4 + 1) (k * 4) rfl
  have d3 := D_at x 1 (k * 4 + 2) (k * 4 + 1) rfl
  have d4 := D_at x 1 (k * 4 + 3) (k * 4 + 2) rfl
  have d5 := D_at x 2 (k * 4 + 2) (k * 4) rfl
  have d6 := D_at x 2 (k * 4 + 3) (k * 4 + 1) rfl
  fin_cases j
  all_goals simp [mul, add, shuffle, blend, bin, block, Nat.testBit, e3, d2, d3, d4, d5, d6, h1, h2]; ring

/-- **C52**, NEON -/
theorem biquad_neon [CommRing α] (x b0 b1 b2 a1 a2 : Nat → α) :
    IsBiquad x b0 b1 b2 a1 a2 (stream (by decide) (outAt biquadNeon ⟨zero, 0, 0⟩ (bin 4 x b0 b1 b2 a1 a2))) := by
  refine biquad4_stream _ _ _ _ _ _ _ fun y o k hi => ⟨_, rfl, fun j => ?_⟩
  obtain ⟨h1, h2, -, -⟩ := hi
  have e3 : D x 2 (k * 4 + 1) = o.x 3 := by rw [h1]; simp
  have d2 := D_at x 1 (k * 4 + 1) (k * 4) rfl
  have d3 := D_at x 1 (k * 4 + 2) (k * 4 + 1) rfl
  have d4 := D_at x 1 (k * 4 + 3) (k * 4 + 2) rfl
  have d5 := D_at x 2 (k * 4 + 2) (k * 4) rfl
  have d6 := D_at x 2 (k * 4 + 3) (k * 4 + 1) rfl
  fin_cases j
  all_goals simp [mul, add, vext, bin, block, e3, d2, d3, d4, d5, d6, h1, h2]; ring

/-- invariant of the eight-lane biquad before block `k` -/
def Biquad8Inv [Zero α] (x y : Nat → α) (k : Nat) (o : BiquadV 8 α) : Prop :=
  o.x 7 = D x 1 (k * 8) ∧ o.x 6 = D x 2 (k * 8) ∧ o.ym1 = D y 1 (k * 8) ∧ o.ym2 = D y 2 (k * 8)

theorem biquad8_tail [CommRing α] {x b0 b1 b2 a1 a2 y : Nat → α} (h : IsBiquad x b0 b1 b2 a1 a2 y) (k : Nat)
    (o : BiquadV 8 α) (hi : Biquad8Inv x y k o) (e : V 8 α)
    (he : ∀ j : Fin 8, e j = b0 (k * 8 + j) * x (k * 8 + j) + b1 (k * 8 + j) * D x 1 (k * 8 + j) +
      b2 (k * 8 + j) * D x 2 (k * 8 + j)) :
    let r := biquadTail8 o (bin 8 x b0 b1 b2 a1 a2 k) e
    Biquad8Inv x y (k + 1) r.1 ∧ ∀ j : Fin 8, r.2 j = y (k * 8 + j) := by
  obtain ⟨-, -, h1, h2⟩ := hi
  have y0 : e 0 - o.ym1 * a1 (k * 8 + 0) - o.ym2 * a2 (k * 8 + 0) = y (k * 8) := by
    rw [he 0, h1, h2, h (k * 8)]; simp; ring
  have y1 : e 1 - y (k * 8) * a1 (k * 8 + 1) - o.ym1 * a2 (k * 8 + 1) = y (k * 8 + 1) := by
    rw [he 1, h1, h (k * 8 + 1)]
    have := D_at y 1 (k * 8 + 1) (k * 8) rfl
    have e2 : D y 2 (k * 8 + 1) = D y 1 (k * 8) := by simp
    rw [this, e2]; simp; ring
  have y2 : e 2 - y (k * 8 + 1) * a1 (k * 8 + 2) - y (k * 8) * a2 (k * 8 + 2) = y (k * 8 + 2) := by
    rw [he 2, h (k * 8 + 2), D_at y 1 (k * 8 + 2) (k * 8 + 1) rfl, D_at y 2 (k * 8 + 2) (k * 8) rfl]; simp; ring
  have y3 : e 3 - y (k * 8 + 2) * a1 (k * 8 + 3) - y (k * 8 + 1) * a2 (k * 8 + 3) = y (k * 8 + 3) := by
    rw [he 3, h (k * 8 + 3), D_at y 1 (k * 8 + 3) (k * 8 + 2) rfl, D_at y 2 (k * 8 + 3) (k * 8 + 1) rfl]; simp; ring
  have y4 : e 4 - y (k * 8 + 3) * a1 (k * 8 + 4) - y (k * 8 + 2) * a2 (k * 8 + 4) = y (k * 8 + 4) := by
    rw [he 4, h (k * 8 + 4), D_at y 1 (k * 8 + 4) (k * 8 + 3) rfl, D_at y 2 (k * 8 + 4) (k * 8 + 2) rfl]; simp; ring
  have y5 : e 5 - y (k * 8 + 4) * a1 (k * 8 + 5) - y (k * 8 + 3) * a2 (k * 8 + 5) = y (k * 8 + 5) := by
    rw [he 5, h (k * 8 + 5), D_at y 1 (k * 8 + 5) (k * 8 + 4) rfl, D_at y 2 (k * 8 + 5) (k * 8 + 3) rfl]; simp; ring
  have y6 : e 6 - y (k * 8 + 5) * a1 (k * 8 + 6) - y (k * 8 + 4) * a2 (k * 8 + 6) = y (k * 8 + 6) := by
    rw [he 6, h (k * 8 + 6), D_at y 1 (k * 8 + 6) (k * 8 + 5) rfl, D_at y 2 (k * 8 + 6) (k * 8 + 4) rfl]; simp; ring
  have y7 : e 7 - y (k * 8 + 6) * a1 (k * 8 + 7) - y (k * 8 + 5) * a2 (k * 8 + 7) = y (k * 8 + 7) := by
    rw [he 7, h (k * 8 + 7), D_at y 1 (k * 8 + 7) (k * 8 + 6) rfl, D_at y 2 (k * 8 + 7) (k * 8 + 5) rfl]; simp; ring
  have hr : biquadTail8 o (bin 8 x b0 b1 b2 a1 a2 k) e =
      (⟨block 8 x k, y (k * 8 + 7), y (k * 8 + 6)⟩, ![y (k * 8), y (k * 8 + 1), y (k * 8 + 2), y (k * 8 + 3), y (k * 8 + 4),
        y (k * 8 + 5), y (k * 8 + 6), y (k * 8 + 7)]) := by
    have c0 : ((0 : Fin 8) : Nat) = 0 := rfl
    have c1 : ((1 : Fin 8) : Nat) = 1 := rfl
    have c2 : ((2 : Fin 8) : Nat) = 2 := rfl
    have c3 : ((3 : Fin 8) : Nat) = 3 := rfl
    have c4 : ((4 : Fin 8) : Nat) = 4 := rfl
    have c5 : ((5 : Fin 8) : Nat) = 5 := rfl
    have c6 : ((6 : Fin 8) : Nat) = 6 := rfl
    have c7 : ((7 : Fin 8) : Nat) = 7 := rfl
    simp only [biquadTail8, bin, block, c0, c1, c2, c3, c4, c5, c6, c7, y0, y1, y2, y3, y4, y5, y6, y7]
  intro r
  have : r = _ := hr
  rw [this]
  refine ⟨⟨?_, ?_, ?_, ?_⟩, fun j => ?_⟩
  · rw [D_at x 1 _ (k * 8 + 7) (by omega)]; rfl
  · rw [D_at x 2 _ (k * 8 + 6) (by omega)]; rfl
  · exact (D_at y 1 _ (k * 8 + 7) (by omega)).symm
  · exact (D_at y 2 _ (k * 8 + 6) (by omega)).symm
  · fin_cases j <;> rfl

theorem biquad8_step [CommRing α] {x b0 b1 b2 a1 a2 y : Nat → α} (h : IsBiquad x b0 b1 b2 a1 a2 y) (k : Nat)
    (o : BiquadV 8 α) (hi : Biquad8Inv x y k o) :
    let r := biquadAvx o (bin 8 x b0 b1 b2 a1 a2 k)
    Biquad8Inv x y (k + 1) r.1 ∧ ∀ j : Fin 8, r.2 j = y (k * 8 + j) := by
  refine biquad8_tail h k o hi _ fun j => ?_
  obtain ⟨h1, h2, -, -⟩ := hi
  have e1 : D x 2 (k * 8 + 1) = D x 1 (k * 8) := by simp
  have d1 := D_at x 1 (k * 8 + 1) (k * 8) rfl
  have d2 := D_at x 1 (k * 8 + 2) (k * 8 + 1) rfl
  have d3 := D_at x 1 (k * 8 + 3) (k * 8 + 2) rfl
  have d4 := D_at x 1 (k * 8 + 4) (k * 8 + 3) rfl
  have d5 := D_at x 1 (k * 8 + 5) (k * 8 + 4) rfl
  have d6 := D_at x 1 (k * 8 + 6) (k * 8 + 5) rfl
  have d7 := D_at x 1 (k * 8 + 7) (k * 8 + 6) rfl
  have f2 := D_at x 2 (k * 8 + 2) (k * 8) rfl
  have f3 := D_at x 2 (k * 8 + 3) (k * 8 + 1) rfl
  have f4 := D_at x 2 (k * 8 + 4) (k * 8 + 2) rfl
  have f5 := D_at x 2 (k * 8 + 5) (k * 8 + 3) rfl
  have f6 := D_at x 2 (k * 8 + 6) (k * 8 + 4) rfl
  have f7 := D_at x 2 (k * 8 + 7) (k * 8 + 5) rfl
  fin_cases j
  all_goals
    simp [mul, add, permute, permute2f128, sel128, blend, Nat.testBit, bin, block, h1, h2, e1, d1, d2, d3, d4, d5, d6, d7, f2,
      f3, f4, f5, f6, f7]
    ring

/-- **C52**, AVX -/
theorem biquad_avx [CommRing α] (x b0 b1 b2 a1 a2 : Nat → α) :
    IsBiquad x b0 b1 b2 a1 a2 (stream (by decide) (outAt biquadAvx ⟨zero, 0, 0⟩ (bin 8 x b0 b1 b2 a1 a2))) := by
  have hy := biquadRec_is x b0 b1 b2 a1 a2
  generalize hY : (fun n => (biquadRec x b0 b1 b2 a1 a2 n).1) = y at hy
  have inv : ∀ k, Biquad8Inv x y k (stateAt biquadAvx ⟨zero, 0, 0⟩ (bin 8 x b0 b1 b2 a1 a2) k) := by
    intro k
    induction k with
    | zero => simp [Biquad8Inv, stateAt, zero]
    | succ k ih => exact (biquad8_step hy k _ ih).1
  rw [stream_eq (y := y)]
  · exact hy
  · exact fun k j => (biquad8_step hy k _ (inv k)).2 j

/-! ### C53 -/

/-- the coefficient streams when the coefficients may be changed by messages between blocks of `N` samples -/
def held (N : Nat) (cf : Nat → Coef α) (f : Coef α → α) (n : Nat) : α := f (cf (n / N))

/-- the same filter with coefficients that are constant within a block -/
def IsBiquadK [Zero α] [Mul α] [Add α] [Sub α] (N : Nat) (cf : Nat → Coef α) (x y : Nat → α) : Prop :=
  IsBiquad x (held N cf (·.b0)) (held N cf (·.b1)) (held N cf (·.b2)) (held N cf (·.a1)) (held N cf (·.a2)) y

theorem held_at (N : Nat) (cf : Nat → Coef α) (f : Coef α → α) (k j : Nat) (h : j < N) : held N cf f (k * N + j) = f (cf k) := by
  have : (k * N + j) / N = k := by
    rw [Nat.add_comm, Nat.add_mul_div_right _ _ (by omega), Nat.div_eq_of_lt h, Nat.zero_add]
  rw [held, this]

/-- **C53**, one sample at a time -/
theorem biquadK_scalar [CommRing α] (cf : Nat → Coef α) (x : Nat → α) :
    IsBiquadK 1 cf x (stream (by decide) (outAt (fun o i => biquadKNone i.1 o i.2) ⟨0, 0, 0, 0⟩ fun k => (cf k, block 1 x k))) := by
  obtain ⟨y, hy⟩ : ∃ y, IsBiquadK 1 cf x y := ⟨_, biquadRec_is _ _ _ _ _ _⟩
  have hs : ∀ k, stateAt (fun o i => biquadKNone i.1 o i.2) ⟨0, 0, 0, 0⟩ (fun k => (cf k, block 1 x k)) k =
      ⟨D x 1 k, D x 2 k, D y 1 k, D y 2 k⟩ := by
    intro k
    induction k with
    | zero => simp [stateAt]
    | succ k ih =>
      rw [stateAt, ih]
      simp only [biquadKNone, block, D_succ_succ, D_zero]
      congr 1
      · simp
      · rw [hy k]; simp [held]
  rw [stream_eq (y := y)]
  · exact hy
  · intro k j
    obtain rfl : j = 0 := Subsingleton.elim _ _
    rw [outAt, hs]
    simp only [biquadKNone, block]
    have := hy k
    simp [held] at this ⊢
    rw [this]

/-- invariant of the four-lane filter before sample `n` -/
def BiquadKInv [Zero α] (x y : Nat → α) (n : Nat) (o : BiquadK α) : Prop :=
  (∀ j, o.xm1 j = D x 1 n) ∧ (∀ j, o.xm2 j = D x 2 n) ∧ (∀ j, o.ym1 j = D y 1 n) ∧ (∀ j, o.ym2 j = D y 2 n)

theorem coeffCol_0 [CommRing α] (c : Coef α) :
    coeffCol c 0 0 = 0 ∧
    coeffCol c 1 0 = 0 ∧
    coeffCol c 2 0 = 0 ∧
    coeffCol c 3 0 = c.b0 ∧
    coeffCol c 4 0 = c.b1 ∧
    coeffCol c 5 0 = c.b2 ∧
    coeffCol c 6 0 = -c.a1 ∧
    coeffCol c 7 0 = -c.a2 :=
  ⟨rfl, rfl, rfl, rfl, rfl, rfl, rfl, rfl⟩

theorem coeffCol_1 [CommRing α] (c : Coef α) :
    coeffCol c 0 1 = (0 + (-c.a1) * (0)) ∧
    coeffCol c 1 1 = (0 + (-c.a1) * (0)) ∧
    coeffCol c 2 1 = (c.b0 + (-c.a1) * (0)) ∧
    coeffCol c 3 1 = (c.b1 + (-c.a1) * (c.b0)) ∧
    coeffCol c 4 1 = (c.b2 + (-c.a1) * (c.b1)) ∧
    coeffCol c 5 1 = (0 + (-c.a1) * (c.b2)) ∧
    coeffCol c 6 1 = (-c.a2 + (-c.a1) * (-c.a1)) ∧
    coeffCol c 7 1 = (0 + (-c.a1) * (-c.a2)) :=
  ⟨rfl, rfl, rfl, rfl, rfl, rfl, rfl, rfl⟩

theorem coeffCol_2 [CommRing α] (c : Coef α) :
    coeffCol c 0 2 = (0 + ((-c.a1) * ((0 + (-c.a1) * (0))) + (-c.a2) * (0))) ∧
    coeffCol c 1 2 = (c.b0 + ((-c.a1) * ((0 + (-c.a1) * (0))) + (-c.a2) * (0))) ∧
    coeffCol c 2 2 = (c.b1 + ((-c.a1) * ((c.b0 + (-c.a1) * (0))) + (-c.a2) * (0))) ∧
    coeffCol c 3 2 = (c.b2 + ((-c.a1) * ((c.b1 + (-c.a1) * (c.b0))) + (-c.a2) * (c.b0))) ∧
    coeffCol c 4 2 = (0 + ((-c.a1) * ((c.b2 + (-c.a1) * (c.b1))) + (-c.a2) * (c.b1))) ∧
    coeffCol c 5 2 = (0 + ((-c.a1) * ((0 + (-c.a1) * (c.b2))) + (-c.a2) * (c.b2))) ∧
    coeffCol c 6 2 = (0 + ((-c.a1) * ((-c.a2 + (-c.a1) * (-c.a1))) + (-c.a2) * (-c.a1))) ∧
    coeffCol c 7 2 = (0 + ((-c.a1) * ((0 + (-c.a1) * (-c.a2))) + (-c.a2) * (-c.a2))) :=
  ⟨rfl, rfl, rfl, rfl, rfl, rfl, rfl, rfl⟩

theorem coeffCol_3 [CommRing α] (c : Coef α) :
    coeffCol c 0 3 = (c.b0 + ((-c.a1) * ((0 + ((-c.a1) * ((0 + (-c.a1) * (0))) + (-c.a2) * (0)))) + (-c.a2) * ((0 + (-c.a1) * (0))))) ∧
    coeffCol c 1 3 = (c.b1 + ((-c.a1) * ((c.b0 + ((-c.a1) * ((0 + (-c.a1) * (0))) + (-c.a2) * (0)))) + (-c.a2) * ((0 + (-c.a1) * (0))))) ∧
    coeffCol c 2 3 = (c.b2 + ((-c.a1) * ((c.b1 + ((-c.a1) * ((c.b0 + (-c.a1) * (0))) + (-c.a2) * (0)))) + (-c.a2) * ((c.b0 + (-c.a1) * (0))))) ∧
    coeffCol c 3 3 = (0 + ((-c.a1) * ((c.b2 + ((-c.a1) * ((c.b1 + (-c.a1) * (c.b0))) + (-c.a2) * (c.b0)))) + (-c.a2) * ((c.b1 + (-c.a1) * (c.b0))))) ∧
    coeffCol c 4 3 = (0 + ((-c.a1) * ((0 + ((-c.a1) * ((c.b2 + (-c.a1) * (c.b1))) + (-c.a2) * (c.b1)))) + (-c.a2) * ((c.b2 + (-c.a1) * (c.b1))))) ∧
    coeffCol c 5 3 = (0 + ((-c.a1) * ((0 + ((-c.a1) * ((0 + (-c.a1) * (c.b2))) + (-c.a2) * (c.b2)))) + (-c.a2) * ((0 + (-c.a1) * (c.b2))))) ∧
    coeffCol c 6 3 = (0 + ((-c.a1) * ((0 + ((-c.a1) * ((-c.a2 + (-c.a1) * (-c.a1))) + (-c.a2) * (-c.a1)))) + (-c.a2) * ((-c.a2 + (-c.a1) * (-c.a1))))) ∧
    coeffCol c 7 3 = (0 + ((-c.a1) * ((0 + ((-c.a1) * ((0 + (-c.a1) * (-c.a2))) + (-c.a2) * (-c.a2)))) + (-c.a2) * ((0 + (-c.a1) * (-c.a2))))) :=
  ⟨rfl, rfl, rfl, rfl, rfl, rfl, rfl, rfl⟩

/-- the sum over the columns gives four consecutive outputs -/
theorem biquadKSum_is [CommRing α] {x y : Nat → α} (c : Coef α) (n : Nat)
    (h : ∀ j, j < 4 → y (n + j) = c.b0 * x (n + j) + c.b1 * D x 1 (n + j) + c.b2 * D x 2 (n + j) - c.a1 * D y 1 (n + j) -
      c.a2 * D y 2 (n + j)) (o : BiquadK α) (hi : BiquadKInv x y n o) (j : Fin 4) :
    biquadKSum c (fun _ => x (n + 3)) (fun _ => x (n + 2)) (fun _ => x (n + 1)) (fun _ => x n) o j = y (n + j) := by
  obtain ⟨i1, i2, i3, i4⟩ := hi
  have h0 := h 0 (by decide)
  have h1 := h 1 (by decide)
  have h2 := h 2 (by decide)
  have h3 := h 3 (by decide)
  rw [D_at x 1 (n + 2) (n + 1) rfl, D_at y 1 (n + 2) (n + 1) rfl, D_at x 2 (n + 2) n rfl, D_at y 2 (n + 2) n rfl] at h2
  rw [D_at x 1 (n + 3) (n + 2) rfl, D_at y 1 (n + 3) (n + 2) rfl, D_at x 2 (n + 3) (n + 1) rfl,
    D_at y 2 (n + 3) (n + 1) rfl] at h3
  simp only [D_succ_succ, D_zero, Nat.add_zero] at h0 h1
  rw [h2, h1, h0] at h3
  rw [h1, h0] at h2
  rw [h0] at h1
  fin_cases j
  · obtain ⟨k0, k1, k2, k3, k4, k5, k6, k7⟩ := coeffCol_0 c
    show biquadKSum _ _ _ _ _ _ 0 = y (n + 0)
    simp only [biquadKSum, mul, add, k0, k1, k2, k3, k4, k5, k6, k7, i1, i2, i3, i4, Nat.add_zero, h0]; ring
  · obtain ⟨k0, k1, k2, k3, k4, k5, k6, k7⟩ := coeffCol_1 c
    show biquadKSum _ _ _ _ _ _ 1 = y (n + 1)
    simp only [biquadKSum, mul, add, k0, k1, k2, k3, k4, k5, k6, k7, i1, i2, i3, i4, Nat.add_zero, h1]; ring
  · obtain ⟨k0, k1, k2, k3, k4, k5, k6, k7⟩ := coeffCol_2 c
    show biquadKSum _ _ _ _ _ _ 2 = y (n + 2)
    simp only [biquadKSum, mul, add, k0, k1, k2, k3, k4, k5, k6, k7, i1, i2, i3, i4, Nat.add_zero, h2]; ring
  · obtain ⟨k0, k1, k2, k3, k4, k5, k6, k7⟩ := coeffCol_3 c
    show biquadKSum _ _ _ _ _ _ 3 = y (n + 3)
    simp only [biquadKSum, mul, add, k0, k1, k2, k3, k4, k5, k6, k7, i1, i2, i3, i4, Nat.add_zero, h3]; ring

theorem IsBiquadK.at [CommRing α] {N : Nat} {cf : Nat → Coef α} {x y : Nat → α} (h : IsBiquadK N cf x y) (k j : Nat)
    (hj : j < N) :
    y (k * N + j) = (cf k).b0 * x (k * N + j) + (cf k).b1 * D x 1 (k * N + j) + (cf k).b2 * D x 2 (k * N + j) -
      (cf k).a1 * D y 1 (k * N + j) - (cf k).a2 * D y 2 (k * N + j) := by
  have := h (k * N + j)
  simpa only [held_at N cf _ k j hj] using this

theorem biquadK4_stream [CommRing α] (f : Coef α → BiquadK α → V 4 α → BiquadK α × V 4 α)
    (hf : ∀ c o v, f c o v = (⟨fun _ => v 3, fun _ => v 2, fun _ => (f c o v).2 3, fun _ => (f c o v).2 2⟩,
      biquadKSum c (fun _ => v 3) (fun _ => v 2) (fun _ => v 1) (fun _ => v 0) o)) (cf : Nat → Coef α) (x : Nat → α) :
    IsBiquadK 4 cf x (stream (by decide) (outAt (fun o i => f i.1 o i.2) ⟨zero, zero, zero, zero⟩
      fun k => (cf k, block 4 x k))) := by
  obtain ⟨y, hy⟩ : ∃ y, IsBiquadK 4 cf x y := ⟨_, biquadRec_is _ _ _ _ _ _⟩
  have out : ∀ k o, BiquadKInv x y (k * 4) o → ∀ j : Fin 4, (f (cf k) o (block 4 x k)).2 j = y (k * 4 + j) := by
    intro k o hi j
    rw [hf]
    exact biquadKSum_is (cf k) (k * 4) (fun j hj => hy.at k j hj) o hi j
  have inv : ∀ k, BiquadKInv x y (k * 4) (stateAt (fun o i => f i.1 o i.2) ⟨zero, zero, zero, zero⟩
      (fun k => (cf k, block 4 x k)) k) := by
    intro k
    induction k with
    | zero => simp [BiquadKInv, stateAt, zero]
    | succ k ih =>
      have o3 := out k _ ih 3
      have o2 := out k _ ih 2
      rw [stateAt]
      dsimp only
      rw [hf]
      dsimp only
      rw [o3, o2]
      refine ⟨fun j => ?_, fun j => ?_, fun j => ?_, fun j => ?_⟩
      · rw [D_at x 1 _ (k * 4 + 3) (by omega)]; rfl
      · rw [D_at x 2 _ (k * 4 + 2) (by omega)]; rfl
      · rw [D_at y 1 _ (k * 4 + 3) (by omega)]; rfl
      · rw [D_at y 2 _ (k * 4 + 2) (by omega)]; rfl
  rw [stream_eq (y := y)]
  · exact hy
  · exact fun k j => out k _ (inv k) j

/-- **C53**, SSE -/
theorem biquadK_sse [CommRing α] (cf : Nat → Coef α) (x : Nat → α) :
    IsBiquadK 4 cf x (stream (by decide) (outAt (fun o i => biquadKSse i.1 o i.2) ⟨zero, zero, zero, zero⟩
      fun k => (cf k, block 4 x k))) := by
  refine biquadK4_stream biquadKSse (fun c o v => ?_) cf x
  have e : ∀ (u : V 4 α) (i : Fin 4), shuffle u u i i i i = fun _ => u i := fun u i => by
    funext j; fin_cases j <;> rfl
  simp only [biquadKSse, e]

/-- **C53**, NEON -/
theorem biquadK_neon [CommRing α] (cf : Nat → Coef α) (x : Nat → α) :
    IsBiquadK 4 cf x (stream (by decide) (outAt (fun o i => biquadKNeon i.1 o i.2) ⟨zero, zero, zero, zero⟩
      fun k => (cf k, block 4 x k))) :=
  biquadK4_stream biquadKNeon (fun _ _ _ => rfl) cf x

theorem biquadKAvx_step [CommRing α] {cf : Nat → Coef α} {x y : Nat → α} (hy : IsBiquadK 8 cf x y) (k : Nat) (o : BiquadK α)
    (hi : BiquadKInv x y (k * 8) o) :
    BiquadKInv x y ((k + 1) * 8) (biquadKAvx (cf k) o (block 8 x k)).1 ∧
    ∀ j : Fin 8, (biquadKAvx (cf k) o (block 8 x k)).2 j = y (k * 8 + j) := by
  have lo := biquadKSum_is (cf k) (k * 8) (fun j hj => hy.at k j (by omega)) o hi
  have hi2 : BiquadKInv x y (k * 8 + 4) ⟨fun _ => x (k * 8 + 3), fun _ => x (k * 8 + 2), fun _ => y (k * 8 + 3),
      fun _ => y (k * 8 + 2)⟩ :=
    ⟨fun j => (D_at x 1 _ (k * 8 + 3) rfl).symm, fun j => (D_at x 2 _ (k * 8 + 2) rfl).symm,
     fun j => (D_at y 1 _ (k * 8 + 3) rfl).symm, fun j => (D_at y 2 _ (k * 8 + 2) rfl).symm⟩
  have up := biquadKSum_is (cf k) (k * 8 + 4) (fun j hj => by
    have := hy.at k (4 + j) (by omega)
    simpa only [← Nat.add_assoc] using this) _ hi2
  have hr : biquadKAvx (cf k) o (block 8 x k) = (⟨fun _ => x (k * 8 + 7), fun _ => x (k * 8 + 6), fun _ => y (k * 8 + 7),
      fun _ => y (k * 8 + 6)⟩, ![y (k * 8), y (k * 8 + 1), y (k * 8 + 2), y (k * 8 + 3), y (k * 8 + 4), y (k * 8 + 5),
      y (k * 8 + 6), y (k * 8 + 7)]) := by
    have c0 : ((0 : Fin 8) : Nat) = 0 := rfl
    have c1 : ((1 : Fin 8) : Nat) = 1 := rfl
    have c2 : ((2 : Fin 8) : Nat) = 2 := rfl
    have c3 : ((3 : Fin 8) : Nat) = 3 := rfl
    have c4 : ((4 : Fin 8) : Nat) = 4 := rfl
    have c5 : ((5 : Fin 8) : Nat) = 5 := rfl
    have c6 : ((6 : Fin 8) : Nat) = 6 := rfl
    have c7 : ((7 : Fin 8) : Nat) = 7 := rfl
    have d0 : ((0 : Fin 4) : Nat) = 0 := rfl
    have d1 : ((1 : Fin 4) : Nat) = 1 := rfl
    have d2 : ((2 : Fin 4) : Nat) = 2 := rfl
    have d3 : ((3 : Fin 4) : Nat) = 3 := rfl
    simp only [Nat.add_assoc, Nat.reduceAdd] at up
    simp only [biquadKAvx, block, c0, c1, c2, c3, c4, c5, c6, c7, Nat.add_zero, lo, d0, d1, d2, d3, up, Nat.add_assoc,
      Nat.reduceAdd]
  rw [hr]
  refine ⟨⟨fun j => ?_, fun j => ?_, fun j => ?_, fun j => ?_⟩, fun j => ?_⟩
  · rw [D_at x 1 _ (k * 8 + 7) (by omega)]
  · rw [D_at x 2 _ (k * 8 + 6) (by omega)]
  · rw [D_at y 1 _ (k * 8 + 7) (by omega)]
  · rw [D_at y 2 _ (k * 8 + 6) (by omega)]
  · fin_cases j <;> rfl

/-- **C53**, AVX -/
theorem biquadK_avx [CommRing α] (cf : Nat → Coef α) (x : Nat → α) :
    IsBiquadK 8 cf x (stream (by decide) (outAt (fun o i => biquadKAvx i.1 o i.2) ⟨zero, zero, zero, zero⟩
      fun k => (cf k, block 8 x k))) := by
  obtain ⟨y, hy⟩ : ∃ y, IsBiquadK 8 cf x y := ⟨_, biquadRec_is _ _ _ _ _ _⟩
  have inv : ∀ k, BiquadKInv x y (k * 8) (stateAt (fun o i => biquadKAvx i.1 o i.2) ⟨zero, zero, zero, zero⟩
      (fun k => (cf k, block 8 x k)) k) := by
    intro k
    induction k with
    | zero => simp [BiquadKInv, stateAt, zero]
    | succ k ih => exact (biquadKAvx_step hy k _ ih).1
  rw [stream_eq (y := y)]
  · exact hy
  · exact fun k j => (biquadKAvx_step hy k _ (inv k)).2 j

end Verif.Simd
