import Verif.Sig.Wrap
import Verif.Sig.Clip
import Verif.Sig.Sqrt
import Verif.Sig.Mtof
import Verif.Sig.Ftom
import Verif.Sig.Dbtorms
import Verif.Sig.Dbtopow
import Verif.Sig.Rmstodb
import Verif.Sig.Powtodb
import Mathlib.Analysis.Complex.ExponentialBounds
/-!
# C74: functions of a signal

`[wrap~]`, `[clip~]`, `[sqrt~]`, `[mtof~]`, `[ftom~]`, `[dbtorms~]`, `[dbtopow~]`, `[rmstodb~]`, `[powtodb~]`: what is at the outlet, for
every signal at the inlet.
-/
namespace Verif.Sig
open Verif.Reduce

variable {μ : Type} {W : World ℝ μ} {log : ℕ → List (Sent μ)} {v : ℕ → ℕ → ℕ → ℝ}

/-- **C74** `[wrap~]`: the fractional part -/
theorem wrap_tilde (hW : IsReal W) (h : Solves W Wrap.patch log v) (t : ℕ) :
    inSum v (Wrap.patch.ins Wrap.out0 0) t = Int.fract (v Wrap.in0 0 t) ∧
    0 ≤ inSum v (Wrap.patch.ins Wrap.out0 0) t ∧ inSum v (Wrap.patch.ins Wrap.out0 0) t < 1 := by
  have e : inSum v (Wrap.patch.ins Wrap.out0 0) t = Int.fract (v Wrap.in0 0 t) := by
    rw [Wrap.o0, Wrap.n2 h, Wrap.n1 h, hW.floor]; rfl
  rw [e]
  exact ⟨rfl, Int.fract_nonneg _, Int.fract_lt_one _⟩

/-- the number that holds at an inlet: the last number that came, or the argument -/
noncomputable def heldAt (W : World ℝ μ) (init : ℝ) (log : List (Sent μ)) (obj : ℕ) : ℝ :=
  ((log.filter fun e => e.src = obj ∧ e.outlet = 0).filterMap fun e => W.num e.msg).getLast?.getD init

theorem held_eq (W : World ℝ μ) (init : ℝ) (log : List (Sent μ)) (a c d : ℕ) :
    held W init (received log [⟨a, 0, c, d, .c⟩]) = heldAt W init log a := by
  rw [received_one, heldAt, held, List.filterMap_map]
  rfl

/-- **C74** `[clip~]`: never beyond the bounds, and the signal itself where it is between them; the bounds are the numbers that came
last at the control inlets, or the arguments -/
theorem clip_tilde {a1 a2 : ℝ} (hW : IsReal W) (h : Solves W (Clip.patch a1 a2) log v) (t : ℕ) :
    let lo := heldAt W a1 (log t) Clip.in1
    let hi := heldAt W a2 (log t) Clip.in2
    let x := v Clip.in0 0 t
    let y := inSum v ((Clip.patch a1 a2).ins Clip.out0 0) t
    y = max (min x hi) lo ∧ lo ≤ y ∧ (lo ≤ hi → y ≤ hi) ∧ (lo ≤ x → x ≤ hi → y = x) := by
  have e : inSum v ((Clip.patch a1 a2).ins Clip.out0 0) t =
      max (min (v Clip.in0 0 t) (heldAt W a2 (log t) Clip.in2)) (heldAt W a1 (log t) Clip.in1) := by
    rw [Clip.o0, Clip.n5 h, Clip.n4 h, hW.max, hW.min, held_eq, held_eq]
  refine ⟨e, ?_, ?_, ?_⟩
  · rw [e]; exact le_max_right _ _
  · intro hl; rw [e]; exact max_le (min_le_right _ _) hl
  · intro h1 h2; rw [e, min_eq_left h2, max_eq_left h1]

/-- **C74** `[sqrt~]`: the square root, and 0 for negative signals -/
theorem sqrt_tilde (hW : IsReal W) (h : Solves W Sqrt.patch log v) (t : ℕ) :
    inSum v (Sqrt.patch.ins Sqrt.out0 0) t = √(v Sqrt.in0 0 t) := by
  rw [Sqrt.o0, Sqrt.n3 h, Sqrt.n5 h, Sqrt.n4 h, hW.mask]
  split
  · rename_i hx
    rw [Sqrt.n0 h, hW.sqrt _ (le_of_lt hx)]
  · rename_i hx
    rw [Real.sqrt_eq_zero_of_nonpos (not_lt.1 hx)]

/-! ### logarithms -/

theorem log2_lo : (0.69314718045 : ℝ) < Real.log 2 := by have := (abs_le.1 Real.log_two_near_10).1; norm_num at this ⊢; linarith
theorem log2_hi : Real.log 2 < 0.69314718066 := by have := (abs_le.1 Real.log_two_near_10).2; norm_num at this ⊢; linarith
theorem log10_lo : (2.30258509278 : ℝ) < Real.log 10 := by
  have h1 := (abs_le.1 Real.log_two_near_10).1
  have h2 := (abs_le.1 Real.log_five_near_10).1
  rw [Real.log_ten_eq]; norm_num at h1 h2 ⊢; linarith
theorem log10_hi : Real.log 10 < 2.30258509320 := by
  have h1 := (abs_le.1 Real.log_two_near_10).2
  have h2 := (abs_le.1 Real.log_five_near_10).2
  rw [Real.log_ten_eq]; norm_num at h1 h2 ⊢; linarith

/-- two exponentials -/
theorem exp_near {x y ε : ℝ} (h : |x - y| ≤ ε) (hε : ε ≤ 1) : |Real.exp x - Real.exp y| ≤ 2 * ε * Real.exp y := by
  have e : Real.exp x - Real.exp y = (Real.exp (x - y) - 1) * Real.exp y := by rw [sub_mul, ← Real.exp_add]; ring_nf
  rw [e, abs_mul, abs_of_pos (Real.exp_pos y)]
  have := Real.abs_exp_sub_one_le (h.trans hε)
  have := Real.exp_pos y
  nlinarith

/-- `ρ` is nearer to 1 than its powers are -/
theorem near_of_pow {ρ : ℝ} (h0 : 0 < ρ) : |ρ - 1| ≤ |ρ ^ 12 - 1| := by
  have e : ρ ^ 12 - 1 = (ρ - 1) * (1 + (ρ + ρ ^ 2 + ρ ^ 3 + ρ ^ 4 + ρ ^ 5 + ρ ^ 6 + ρ ^ 7 + ρ ^ 8 + ρ ^ 9 + ρ ^ 10 + ρ ^ 11)) := by ring
  rw [e, abs_mul]
  have : 0 ≤ ρ + ρ ^ 2 + ρ ^ 3 + ρ ^ 4 + ρ ^ 5 + ρ ^ 6 + ρ ^ 7 + ρ ^ 8 + ρ ^ 9 + ρ ^ 10 + ρ ^ 11 := by positivity
  rw [abs_of_nonneg (a := 1 + _) (by linarith)]
  nlinarith [abs_nonneg (ρ - 1)]

/-- **C74** `[mtof~]`: 440·2^((m-69)/12), up to a ten-millionth of it, for the pitches that Pd distinguishes -/
theorem mtof_tilde (hW : IsReal W) (h : Solves W Mtof.patch log v) (t : ℕ) (hm : |v Mtof.in0 0 t| ≤ 1500) :
    |inSum v (Mtof.patch.ins Mtof.out0 0) t - 440 * (2 : ℝ) ^ ((v Mtof.in0 0 t - 69) / 12)| ≤
      1 / 10000000 * (440 * (2 : ℝ) ^ ((v Mtof.in0 0 t - 69) / 12)) := by
  rw [Mtof.o0, Mtof.n4 h, Mtof.n1 h, Mtof.n3 h, hW.exp]
  generalize v Mtof.in0 0 t = m at hm
  set b : ℝ := (2 : ℝ) ^ (-(69 / 12 : ℝ)) with hb
  have hb0 : 0 < b := Real.rpow_pos_of_pos (by norm_num) _
  have hb12 : b ^ 12 = 1 / 2 ^ 69 := by
    rw [hb, ← Real.rpow_natCast, ← Real.rpow_mul (by norm_num)]
    norm_num [Real.rpow_neg]
  have hT : 440 * (2 : ℝ) ^ ((m - 69) / 12) = Real.exp (m * (Real.log 2 / 12)) * (440 * b) := by
    rw [show (m - 69) / 12 = m / 12 + -(69 / 12 : ℝ) by ring, Real.rpow_add (by norm_num), ← hb, Real.rpow_def_of_pos (by norm_num) (m / 12)]
    ring_nf
  rw [hT]
  set ρ := 8.175798915643707 / (440 * b) with hρ
  have hρ0 : 0 < ρ := by positivity
  have hρ1 : |ρ - 1| ≤ 1 / 10 ^ 10 := by
    refine (near_of_pow hρ0).trans ?_
    rw [hρ, div_pow, mul_pow, hb12]
    norm_num [abs_le]
  have eA : (8.175798915643707 : ℝ) = ρ * (440 * b) := by rw [hρ]; field_simp
  have hx : |m * 0.057762265046662 - m * (Real.log 2 / 12)| ≤ 2 / 10 ^ 8 := by
    rw [← mul_sub, abs_mul]
    have : |0.057762265046662 - Real.log 2 / 12| ≤ 1 / 10 ^ 11 := by
      have := log2_lo; have := log2_hi
      rw [abs_le]; constructor <;> norm_num at * <;> linarith
    calc |m| * |0.057762265046662 - Real.log 2 / 12| ≤ 1500 * (1 / 10 ^ 11) := by gcongr
      _ ≤ 2 / 10 ^ 8 := by norm_num
  have hE := exp_near hx (by norm_num)
  set E := Real.exp (m * (Real.log 2 / 12)) with hEd
  have hE0 : 0 < E := Real.exp_pos _
  set X := Real.exp (m * 0.057762265046662) with hX
  rw [eA, show X * (ρ * (440 * b)) - E * (440 * b) = ((X - E) * ρ + E * (ρ - 1)) * (440 * b) by ring, abs_mul, abs_of_pos (by positivity : (0 : ℝ) < 440 * b)]
  rw [← mul_assoc (1 / 10000000 : ℝ)]
  refine mul_le_mul_of_nonneg_right (a := 440 * b) ?_ (mul_nonneg (by norm_num) hb0.le)
  have hρ2 : ρ ≤ 2 := by
    have h1 := (abs_le.1 hρ1).2
    have h2 : (1 : ℝ) / 10 ^ 10 ≤ 1 := by norm_num
    linarith
  calc |(X - E) * ρ + E * (ρ - 1)| ≤ |(X - E) * ρ| + |E * (ρ - 1)| := abs_add_le _ _
    _ = |X - E| * ρ + E * |ρ - 1| := by rw [abs_mul, abs_mul, abs_of_pos hρ0, abs_of_pos hE0]
    _ ≤ (2 * (2 / 10 ^ 8) * E) * 2 + E * (1 / 10 ^ 10) := by gcongr
    _ ≤ 1 / 10000000 * E := by nlinarith

/-- **C74** `[ftom~]`: 69 + 12·log2(f/440), up to a billionth, for every positive frequency -/
theorem ftom_tilde (hW : IsReal W) (h : Solves W Ftom.patch log v) (t : ℕ) (hf : 0 < v Ftom.in0 0 t) :
    |inSum v (Ftom.patch.ins Ftom.out0 0) t - (69 + 12 * Real.logb 2 (v Ftom.in0 0 t / 440))| ≤ 1 / 1000000000 := by
  rw [Ftom.o0, Ftom.n3 h, Ftom.n2 h, Ftom.n4 h, Ftom.n5 h, hW.max]
  generalize v Ftom.in0 0 t = f at hf
  rw [max_eq_left hf.le, hW.log2 _ (by positivity), Real.logb_mul hf.ne' (by norm_num), Real.logb_div hf.ne' (by norm_num)]
  have e : (Real.logb 2 f + Real.logb 2 0.122312205855086) * 12 - (69 + 12 * (Real.logb 2 f - Real.logb 2 440)) =
      Real.logb 2 (0.122312205855086 ^ 12 * 440 ^ 12 / 2 ^ 69) := by
    rw [Real.logb_div (by norm_num) (by norm_num), Real.logb_mul (by norm_num) (by norm_num), Real.logb_pow, Real.logb_pow, Real.logb_pow, Real.logb_self_eq_one (by norm_num)]
    push_cast
    ring
  rw [e, Real.logb, abs_div, abs_of_pos (Real.log_pos (by norm_num : (1 : ℝ) < 2)), div_le_iff₀ (Real.log_pos (by norm_num))]
  set r : ℝ := 0.122312205855086 ^ 12 * 440 ^ 12 / 2 ^ 69 with hr
  have r1 : 1 - 1 / 10 ^ 10 ≤ r := by rw [hr]; norm_num
  have r2 : r ≤ 1 + 1 / 10 ^ 10 := by rw [hr]; norm_num
  have r0 : 0 < r := by rw [hr]; norm_num
  have l1 := Real.log_le_sub_one_of_pos r0
  have l2 := Real.one_sub_inv_le_log_of_pos r0
  have l3 : r⁻¹ ≤ 1 + 2 / 10 ^ 10 := by
    rw [inv_le_comm₀ r0 (by norm_num)]
    refine le_trans ?_ r1
    norm_num
  have := log2_lo
  rw [abs_le]
  constructor <;> norm_num at * <;> linarith

/-- **C74** `[dbtorms~]`: 10^((x-100)/20), up to a ten-millionth of it (Pd gives 0 for x ≤ 0) -/
theorem dbtorms_tilde (hW : IsReal W) (h : Solves W Dbtorms.patch log v) (t : ℕ) (hx : |v Dbtorms.in0 0 t - 100| ≤ 1000) :
    |inSum v (Dbtorms.patch.ins Dbtorms.out0 0) t - (10 : ℝ) ^ ((v Dbtorms.in0 0 t - 100) / 20)| ≤
      1 / 10000000 * (10 : ℝ) ^ ((v Dbtorms.in0 0 t - 100) / 20) := by
  rw [Dbtorms.o0, Dbtorms.n3 h, Dbtorms.n4 h, Dbtorms.n0 h, hW.exp]
  generalize v Dbtorms.in0 0 t - 100 = y at hx
  rw [Real.rpow_def_of_pos (by norm_num)]
  have hy : |y * 0.115129254649702 - Real.log 10 * (y / 20)| ≤ 2 / 10 ^ 8 := by
    rw [show y * 0.115129254649702 - Real.log 10 * (y / 20) = y * (0.115129254649702 - Real.log 10 / 20) by ring, abs_mul]
    have : |0.115129254649702 - Real.log 10 / 20| ≤ 2 / 10 ^ 11 := by
      have := log10_lo; have := log10_hi
      rw [abs_le]; constructor <;> norm_num at * <;> linarith
    calc |y| * |0.115129254649702 - Real.log 10 / 20| ≤ 1000 * (2 / 10 ^ 11) := by gcongr
      _ ≤ 2 / 10 ^ 8 := by norm_num
  refine (exp_near hy (by norm_num)).trans ?_
  have := Real.exp_pos (Real.log 10 * (y / 20))
  nlinarith

/-- **C74** `[dbtopow~]`: 10^((x-100)/10), up to a ten-millionth of it (Pd gives 0 for x ≤ 0) -/
theorem dbtopow_tilde (hW : IsReal W) (h : Solves W Dbtopow.patch log v) (t : ℕ) (hx : |v Dbtopow.in0 0 t - 100| ≤ 1000) :
    |inSum v (Dbtopow.patch.ins Dbtopow.out0 0) t - (10 : ℝ) ^ ((v Dbtopow.in0 0 t - 100) / 10)| ≤
      1 / 5000000 * (10 : ℝ) ^ ((v Dbtopow.in0 0 t - 100) / 10) := by
  rw [Dbtopow.o0, Dbtopow.n3 h, Dbtopow.n4 h, Dbtopow.n0 h, hW.exp]
  generalize v Dbtopow.in0 0 t - 100 = y at hx
  rw [Real.rpow_def_of_pos (by norm_num)]
  have hy : |y * 0.230258509299405 - Real.log 10 * (y / 10)| ≤ 4 / 10 ^ 8 := by
    rw [show y * 0.230258509299405 - Real.log 10 * (y / 10) = y * (0.230258509299405 - Real.log 10 / 10) by ring, abs_mul]
    have : |0.230258509299405 - Real.log 10 / 10| ≤ 4 / 10 ^ 11 := by
      have := log10_lo; have := log10_hi
      rw [abs_le]; constructor <;> norm_num at * <;> linarith
    calc |y| * |0.230258509299405 - Real.log 10 / 10| ≤ 1000 * (4 / 10 ^ 11) := by gcongr
      _ ≤ 4 / 10 ^ 8 := by norm_num
  refine (exp_near hy (by norm_num)).trans ?_
  have := Real.exp_pos (Real.log 10 * (y / 10))
  nlinarith

/-- **Finding F99** the control object `[dbtorms]` (dbtorms.pd) and Pd give 0 for 0 dB and less; `[dbtorms~]` does not -/
theorem dbtorms_zero (hW : IsReal W) (h : Solves W Dbtorms.patch log v) (t : ℕ) : 0 < inSum v (Dbtorms.patch.ins Dbtorms.out0 0) t := by
  rw [Dbtorms.o0, Dbtorms.n3 h, hW.exp]
  exact Real.exp_pos _

/-- the constants of the decibels -/
theorem log_ratio : |(3.010299956639812 : ℝ) * Real.log 10 - 10 * Real.log 2| ≤ 3 / 10 ^ 9 := by
  have := log10_lo; have := log10_hi; have := log2_lo; have := log2_hi
  rw [abs_le]; constructor <;> norm_num at * <;> linarith

theorem max_near (x y z : ℝ) : |max x z - max y z| ≤ |x - y| := by
  rcases le_total x z with h1 | h1 <;> rcases le_total y z with h2 | h2 <;> simp only [max_eq_left, max_eq_right, h1, h2, sub_self, abs_zero, abs_nonneg, le_refl]
  · rw [abs_sub_comm x y, abs_of_nonpos (by linarith), abs_of_nonneg (by linarith)]; linarith
  · rw [abs_of_nonneg (by linarith), abs_of_nonneg (by linarith)]; linarith

theorem decibel (x : ℝ) : |Real.logb 2 x * 3.010299956639812 - 10 * Real.logb 10 x| ≤ 2 / 10 ^ 9 * |Real.logb 2 x| := by
  have h2 := Real.log_pos (by norm_num : (1 : ℝ) < 2)
  have h10 := Real.log_pos (by norm_num : (1 : ℝ) < 10)
  have e : Real.logb 2 x * 3.010299956639812 - 10 * Real.logb 10 x = Real.logb 2 x * ((3.010299956639812 * Real.log 10 - 10 * Real.log 2) / Real.log 10) := by
    unfold Real.logb; field_simp
  rw [e, abs_mul, mul_comm (2 / 10 ^ 9 : ℝ)]
  refine mul_le_mul_of_nonneg_left ?_ (abs_nonneg _)
  rw [abs_div, abs_of_pos h10, div_le_iff₀ h10]
  refine log_ratio.trans ?_
  have := log10_lo
  norm_num at *
  linarith

/-- **C74** `[powtodb~]`: 100 + 10·log10(x), not below 0, up to 2 billionths for every doubling from 1 -/
theorem powtodb_tilde (hW : IsReal W) (h : Solves W Powtodb.patch log v) (t : ℕ) (hx : 0 < v Powtodb.in0 0 t) :
    |inSum v (Powtodb.patch.ins Powtodb.out0 0) t - max (100 + 10 * Real.logb 10 (v Powtodb.in0 0 t)) 0| ≤
      2 / 10 ^ 9 * |Real.logb 2 (v Powtodb.in0 0 t)| := by
  rw [Powtodb.o0, Powtodb.n6 h, Powtodb.n4 h, Powtodb.n5 h, Powtodb.n2 h, Powtodb.n3 h, hW.max, hW.max]
  generalize v Powtodb.in0 0 t = x at hx
  rw [max_eq_left hx.le, hW.log2 _ hx]
  refine (max_near _ _ _).trans ?_
  rw [show Real.logb 2 x * 3.010299956639812 + 100 - (100 + 10 * Real.logb 10 x) = Real.logb 2 x * 3.010299956639812 - 10 * Real.logb 10 x by ring]
  exact decibel x

/-- **C74** `[rmstodb~]`: 100 + 20·log10(x), not below 0, up to 4 billionths for every doubling from 1 -/
theorem rmstodb_tilde (hW : IsReal W) (h : Solves W Rmstodb.patch log v) (t : ℕ) (hx : 0 < v Rmstodb.in0 0 t) :
    |inSum v (Rmstodb.patch.ins Rmstodb.out0 0) t - max (100 + 20 * Real.logb 10 (v Rmstodb.in0 0 t)) 0| ≤
      4 / 10 ^ 9 * |Real.logb 2 (v Rmstodb.in0 0 t)| := by
  rw [Rmstodb.o0, Rmstodb.n6 h, Rmstodb.n5 h, Rmstodb.n3 h, Rmstodb.n2 h, Rmstodb.n4 h, hW.max, hW.max]
  generalize v Rmstodb.in0 0 t = x at hx
  rw [max_eq_left hx.le, hW.log2 _ hx]
  refine (max_near _ _ _).trans ?_
  rw [show Real.logb 2 x * 6.020599913279624 + 100 - (100 + 20 * Real.logb 10 x) = 2 * (Real.logb 2 x * 3.010299956639812 - 10 * Real.logb 10 x) by ring, abs_mul, abs_of_pos (by norm_num : (0 : ℝ) < 2)]
  have := decibel x
  linarith

/-! ### examples -/

/-- a world of real functions, in which every other object is silent but for object `obj`, whose outlet 0 is `x` -/
noncomputable def realWorld (obj : ℕ) (x : ℕ → ℝ) : World ℝ ℝ where
  bin s x y := if s = "max" then max x y else if s = "min" then min x y else if s = ">" then (if x > y then 1 else 0) else if s = "&" then (if x = 0 then 0 else y) else 0
  un s x := if s = "abs" then |x| else if s = "floor" then ⌊x⌋ else if s = "exp" then Real.exp x else if s = "log2" then Real.logb 2 x else if s = "sqrt" then √x else 0
  num m := some m
  beh p _ _ o t := if p = obj ∧ o = 0 then x t else 0
  late _ _ := false
  block := 64

theorem realWorld_real (obj : ℕ) (x : ℕ → ℝ) : IsReal (realWorld obj x) where
  max _ _ := by simp [realWorld]
  min _ _ := by simp [realWorld]
  abs _ := by simp [realWorld]
  floor _ := by simp [realWorld]
  exp _ := by simp [realWorld]
  log2 _ _ := by simp [realWorld]
  sqrt _ _ := by simp [realWorld]
  mask x y z := by
    simp only [realWorld]
    by_cases h : x > y <;> simp [h]

/-- every signal can be at the inlet of `[mtof~]` -/
example (x : ℕ → ℝ) : ∃ v, Solves (realWorld Mtof.in0 x) Mtof.patch (fun _ => []) v ∧ ∀ t, v Mtof.in0 0 t = x t := by
  obtain ⟨v, h⟩ := Mtof.signals (realWorld Mtof.in0 x) (fun _ => [])
  refine ⟨v, h, fun t => ?_⟩
  have := h 2 (by simp [Mtof.patch, ofConns])
  simp only [Obeys, Mtof.patch, ofConns, Mtof.kind] at this
  rw [this 0 t]
  simp [realWorld]

end Verif.Sig
