import Verif.PolyBound
import Verif.Sig.Cos
import Verif.Sig.Osc
import Mathlib.Analysis.Real.Pi.Bounds
import Mathlib.Analysis.SpecialFunctions.Trigonometric.Bounds
import Mathlib.Tactic.LinearCombination
/-!
# C74: cos~ and osc~

The patches compute polynomials.  For every real number at the inlet of `[cos~]`, and every phase of `[osc~]`, the output is the cosine,
up to the given error.
-/
namespace Verif.Sig
open Verif.Reduce Verif.PolyBound

/-! ### the sine -/

/-- the beginning of the series -/
noncomputable def taylor (x : ℝ) : ℝ := x - x ^ 3 / 6 + x ^ 5 / 120 - x ^ 7 / 5040 + x ^ 9 / 362880 - x ^ 11 / 39916800

theorem sin_taylor {x : ℝ} (hx : |x| ≤ 8 / 5) : |Real.sin x - taylor x| ≤ 1 / 5000000 := by
  have hn : ‖(x : ℂ) * Complex.I‖ = |x| := by simp
  have h := Complex.exp_bound' (x := (x : ℂ) * Complex.I) (n := 13) (by rw [hn]; norm_num; linarith)
  rw [hn] at h
  have him := (Complex.abs_im_le_norm _).trans h
  have e : (Complex.exp ((x : ℂ) * Complex.I) - ∑ m ∈ Finset.range 13, ((x : ℂ) * Complex.I) ^ m / (m.factorial : ℂ)).im = Real.sin x - taylor x := by
    rw [Complex.sub_im, Complex.exp_ofReal_mul_I_im]
    congr 1
    have hI2 : Complex.I ^ 2 = -1 := Complex.I_sq
    have hI3 : Complex.I ^ 3 = -Complex.I := by rw [pow_succ, hI2]; ring
    have hI4 : Complex.I ^ 4 = 1 := by rw [pow_succ, hI3, neg_mul, Complex.I_mul_I]; ring
    have key : ∑ m ∈ Finset.range 13, ((x : ℂ) * Complex.I) ^ m / (m.factorial : ℂ) =
        ((1 - x ^ 2 / 2 + x ^ 4 / 24 - x ^ 6 / 720 + x ^ 8 / 40320 - x ^ 10 / 3628800 + x ^ 12 / 479001600 : ℝ) : ℂ) + ((taylor x : ℝ) : ℂ) * Complex.I := by
      unfold taylor
      simp only [Finset.sum_range_succ, Finset.sum_range_zero, Nat.factorial, mul_pow]
      have h5 : Complex.I ^ 5 = Complex.I := by rw [show 5 = 4 + 1 from rfl, pow_add, hI4]; ring
      have h6 : Complex.I ^ 6 = -1 := by rw [show 6 = 4 + 2 from rfl, pow_add, hI4, hI2]; ring
      have h7 : Complex.I ^ 7 = -Complex.I := by rw [show 7 = 4 + 3 from rfl, pow_add, hI4, hI3]; ring
      have h8 : Complex.I ^ 8 = 1 := by rw [show 8 = 4 + 4 from rfl, pow_add, hI4]; ring
      have h9 : Complex.I ^ 9 = Complex.I := by rw [show 9 = 8 + 1 from rfl, pow_add, h8]; ring
      have h10 : Complex.I ^ 10 = -1 := by rw [show 10 = 8 + 2 from rfl, pow_add, h8, hI2]; ring
      have h11 : Complex.I ^ 11 = -Complex.I := by rw [show 11 = 8 + 3 from rfl, pow_add, h8, hI3]; ring
      have h12 : Complex.I ^ 12 = 1 := by rw [show 12 = 8 + 4 from rfl, pow_add, h8, hI4]; ring
      rw [hI2, hI3, hI4, h5, h6, h7, h8, h9, h10, h11, h12]
      push_cast
      ring
    rw [key, Complex.add_im, Complex.ofReal_im, Complex.mul_I_im, Complex.ofReal_re, zero_add]
  rw [e] at him
  refine him.trans ?_
  have : |x| ^ 13 ≤ (8 / 5 : ℝ) ^ 13 := pow_le_pow_left₀ (abs_nonneg x) hx 13
  have hf : ((Nat.factorial 13 : ℕ) : ℝ) = 6227020800 := by norm_num [Nat.factorial]
  rw [hf]
  calc |x| ^ 13 / 6227020800 * 2 ≤ (8 / 5 : ℝ) ^ 13 / 6227020800 * 2 := by gcongr
    _ ≤ 1 / 5000000 := by norm_num

/-- the sine of the triangle is the cosine: `sin (2π (|φ - 1/2| - 1/4)) = cos (2π φ)` -/
theorem sin_triangle (φ : ℝ) : Real.sin (2 * Real.pi * (|φ - 1 / 2| - 1 / 4)) = Real.cos (2 * Real.pi * φ) := by
  have h1 : 2 * Real.pi * (|φ - 1 / 2| - 1 / 4) = 2 * Real.pi * |φ - 1 / 2| - Real.pi / 2 := by ring
  rw [h1, Real.sin_sub_pi_div_two]
  rcases abs_choice (φ - 1 / 2) with h | h <;> rw [h]
  · rw [show 2 * Real.pi * (φ - 1 / 2) = 2 * Real.pi * φ - Real.pi by ring, Real.cos_sub_pi]; ring
  · rw [show 2 * Real.pi * -(φ - 1 / 2) = Real.pi - 2 * Real.pi * φ by ring, Real.cos_pi_sub]; ring

/-- an odd polynomial that is bounded on the right is bounded -/
theorem odd_bound {f : ℝ → ℝ} (hodd : ∀ x, f (-x) = -f x) {b r : ℝ} (h : ∀ x, 0 ≤ x → x ≤ r → |f x| ≤ b) {x : ℝ} (hx : |x| ≤ r) : |f x| ≤ b := by
  rcases le_total 0 x with h0 | h0
  · exact h x h0 (by rwa [abs_of_nonneg h0] at hx)
  · have := h (-x) (by linarith) (by rwa [abs_of_nonpos h0] at hx)
    rwa [hodd, abs_neg] at this

/-! ### cos~ -/

/-- the polynomial of `[cos~]` -/
noncomputable def cosPoly (s : ℝ) : ℝ := s - s ^ 3 * 0.166667 + s ^ 5 * 0.00833333 - s ^ 7 * 0.000198413 + s ^ 9 * 0.00000275573

/-- its difference from the series, coefficients from the lowest -/
def cosDiff : List ℚ := [0, 0, 0, -1 / 3000000, 0, -1 / 300000000, 0, -(198413 / 1000000000) + 1 / 5040, 0, 275573 / 100000000000 - 1 / 362880, 0, 1 / 39916800]

theorem cosDiff_check : check cosDiff (26 / 10000000) (1 / 50) 79 0 = true := by decide +kernel

theorem cosPoly_taylor {s : ℝ} (hs : |s| ≤ 158 / 100) : |cosPoly s - taylor s| ≤ 26 / 10000000 := by
  refine odd_bound (f := fun s => cosPoly s - taylor s) (r := 158 / 100) (fun x => by unfold cosPoly taylor; ring) (fun x h0 h1 => ?_) hs
  have := bound cosDiff_check (by norm_num) (x := x) (by push_cast; exact h0) (by push_cast; linarith)
  have e : ev cosDiff x = cosPoly x - taylor x := by
    unfold ev cosDiff cosPoly taylor
    simp only [ev]
    push_cast
    ring
  rw [← e]
  exact this.trans (by norm_num)

variable {μ : Type} {W : World ℝ μ} {log : ℕ → List (Sent μ)} {v : ℕ → ℕ → ℕ → ℝ}

theorem cos_out (hW : IsReal W) (h : Solves W Cos.patch log v) (t : ℕ) :
    inSum v (Cos.patch.ins Cos.out0 0) t = cosPoly ((|v Cos.in0 0 t - ⌊v Cos.in0 0 t⌋ - 0.5| - 0.25) * 6.28319) := by
  rw [Cos.o0, Cos.n19 h, Cos.n20 h, Cos.n17 h, Cos.n18 h, Cos.n11 h, Cos.n16 h, Cos.n15 h, Cos.n14 h, Cos.n12 h, Cos.n13 h, Cos.n9 h, Cos.n8 h,
    Cos.n10 h, Cos.n0 h, Cos.n3 h, Cos.n5 h, hW.abs, Cos.n4 h, Cos.n7 h, Cos.n6 h, hW.floor]
  unfold cosPoly
  ring

/-- **C74** `[cos~]`: the cosine of 2π times the signal, up to 0.000005, for every real number -/
theorem cos_tilde (hW : IsReal W) (h : Solves W Cos.patch log v) (t : ℕ) :
    |inSum v (Cos.patch.ins Cos.out0 0) t - Real.cos (2 * Real.pi * v Cos.in0 0 t)| ≤ 1 / 200000 := by
  rw [cos_out hW h]
  generalize hx : v Cos.in0 0 t = x
  set φ := x - ⌊x⌋ with hφ
  have hφ0 : 0 ≤ φ := by have := Int.floor_le x; rw [hφ]; linarith
  have hφ1 : φ < 1 := by have := Int.lt_floor_add_one x; rw [hφ]; linarith
  have hc : Real.cos (2 * Real.pi * x) = Real.cos (2 * Real.pi * φ) := by
    rw [show 2 * Real.pi * x = 2 * Real.pi * φ + ⌊x⌋ * (2 * Real.pi) by rw [hφ]; ring, Real.cos_add_int_mul_two_pi]
  rw [hc, ← sin_triangle]
  norm_num only
  set d := |φ - 1 / 2| - 1 / 4 with hd
  have hd1 : |d| ≤ 1 / 4 := by
    have h1 : |φ - 1 / 2| ≤ 1 / 2 := abs_le.2 ⟨by linarith, by linarith⟩
    have h2 := abs_nonneg (φ - 1 / 2)
    exact abs_le.2 ⟨by linarith, by linarith⟩
  set s := d * (628319 / 100000) with hs
  have hs1 : |s| ≤ 158 / 100 := by
    rw [hs, abs_mul, abs_of_pos (by norm_num : (0 : ℝ) < 628319 / 100000)]
    nlinarith
  have e1 := cosPoly_taylor hs1
  have e2 := sin_taylor (hs1.trans (by norm_num))
  have e3 : |Real.sin s - Real.sin (2 * Real.pi * d)| ≤ 12 / 10000000 := by
    have : |Real.sin s - Real.sin (2 * Real.pi * d)| ≤ |s - 2 * Real.pi * d| := by
      have := Real.abs_sin_sub_sin_le s (2 * Real.pi * d)
      simpa using this
    refine this.trans ?_
    rw [hs, show d * (628319 / 100000) - 2 * Real.pi * d = d * (628319 / 100000 - 2 * Real.pi) by ring, abs_mul]
    have hp1 := Real.pi_gt_d20
    have hp2 := Real.pi_lt_d20
    have : |628319 / 100000 - 2 * Real.pi| ≤ 48 / 10000000 := abs_le.2 ⟨by norm_num at hp2 ⊢; linarith, by norm_num at hp1 ⊢; linarith⟩
    nlinarith [abs_nonneg d, abs_nonneg (628319 / 100000 - 2 * Real.pi)]
  calc |cosPoly s - Real.sin (2 * Real.pi * d)|
      = |(cosPoly s - taylor s) + (taylor s - Real.sin s) + (Real.sin s - Real.sin (2 * Real.pi * d))| := by congr 1; ring
    _ ≤ |cosPoly s - taylor s| + |taylor s - Real.sin s| + |Real.sin s - Real.sin (2 * Real.pi * d)| := abs_add_three _ _ _
    _ ≤ 26 / 10000000 + 1 / 5000000 + 12 / 10000000 := by rw [abs_sub_comm (taylor s)]; gcongr
    _ ≤ 1 / 200000 := by norm_num

/-! ### osc~ -/

/-- the polynomial of `[osc~]` -/
noncomputable def oscPoly (s : ℝ) : ℝ := s + s ^ 3 * (-0.166666666666667) + s ^ 5 * 0.007833333333333

def oscDiff : List ℚ := [0, 0, 0, -(166666666666667 / 1000000000000000) + 1 / 6, 0, 7833333333333 / 1000000000000000 - 1 / 120, 0, 1 / 5040, 0, -(1 / 362880), 0, 1 / 39916800]

theorem oscDiff_check : check oscDiff (74 / 100000) (1 / 50) 79 0 = true := by decide +kernel

theorem oscPoly_taylor {s : ℝ} (hs : |s| ≤ 158 / 100) : |oscPoly s - taylor s| ≤ 74 / 100000 := by
  refine odd_bound (f := fun s => oscPoly s - taylor s) (r := 158 / 100) (fun x => by unfold oscPoly taylor; ring) (fun x h0 h1 => ?_) hs
  have := bound oscDiff_check (by norm_num) (x := x) (by push_cast; exact h0) (by push_cast; linarith)
  have e : ev oscDiff x = oscPoly x - taylor x := by
    unfold ev oscDiff oscPoly taylor
    simp only [ev]
    push_cast
    ring
  rw [← e]
  exact this.trans (by norm_num)

theorem oscPoly_le_one {s : ℝ} (hs : |s| ≤ 158 / 100) : |oscPoly s| ≤ 1 := by
  refine odd_bound (f := oscPoly) (r := 158 / 100) (fun x => by unfold oscPoly; ring) (fun x h0 h1 => ?_) hs
  unfold oscPoly
  have hx2 : x ^ 2 ≤ 25 / 10 := by nlinarith
  have hq : 0 ≤ 0.4 + 0.1 * x - 0.0248 * x ^ 2 - 0.00784 * x ^ 3 := by nlinarith [mul_nonneg h0 (sq_nonneg x)]
  rw [abs_le]
  constructor
  · have : 0 ≤ x * (1 + x ^ 2 * (-0.166666666666667) + x ^ 4 * 0.007833333333333) := by
      refine mul_nonneg h0 ?_
      nlinarith [sq_nonneg (x ^ 2)]
    nlinarith
  · nlinarith [mul_nonneg (sq_nonneg (x - 1.5757)) hq]

theorem osc_out {a1 : ℝ} (hW : IsReal W) (h : Solves W (Osc.patch a1) log v) (t : ℕ) :
    inSum v ((Osc.patch a1).ins Osc.out0 0) t = oscPoly ((|v 12 0 t - 0.5| - 0.25) * 6.283185307179586) := by
  rw [Osc.o0, Osc.n3 h, Osc.n14 h, Osc.n11 h, Osc.n13 h, Osc.n1 h, Osc.n0 h, Osc.n2 h, Osc.n7 h, Osc.n8 h, Osc.n5 h, hW.abs, Osc.n6 h]
  unfold oscPoly
  ring

/-- **C74** `[osc~]`: the cosine of 2π times the phase of its phasor, up to 0.00075, and never beyond 1 -/
theorem osc_tilde {a1 : ℝ} (hW : IsReal W) (h : Solves W (Osc.patch a1) log v) (t : ℕ) (h0 : 0 ≤ v 12 0 t) (h1 : v 12 0 t ≤ 1) :
    |inSum v ((Osc.patch a1).ins Osc.out0 0) t - Real.cos (2 * Real.pi * v 12 0 t)| ≤ 3 / 4000 ∧
    |inSum v ((Osc.patch a1).ins Osc.out0 0) t| ≤ 1 := by
  rw [osc_out hW h]
  generalize hx : v 12 0 t = φ at h0 h1 ⊢
  rw [← sin_triangle]
  norm_num only
  set d := |φ - 1 / 2| - 1 / 4 with hd
  have hd1 : |d| ≤ 1 / 4 := by
    have h1 : |φ - 1 / 2| ≤ 1 / 2 := abs_le.2 ⟨by linarith, by linarith⟩
    have h2 := abs_nonneg (φ - 1 / 2)
    exact abs_le.2 ⟨by linarith, by linarith⟩
  set s := d * (3141592653589793 / 500000000000000) with hs
  have hs1 : |s| ≤ 158 / 100 := by
    rw [hs, abs_mul, abs_of_pos (by norm_num : (0 : ℝ) < 3141592653589793 / 500000000000000)]
    nlinarith
  refine ⟨?_, oscPoly_le_one hs1⟩
  have e1 := oscPoly_taylor hs1
  have e2 := sin_taylor (hs1.trans (by norm_num))
  have e3 : |Real.sin s - Real.sin (2 * Real.pi * d)| ≤ 1 / 10000000 := by
    have : |Real.sin s - Real.sin (2 * Real.pi * d)| ≤ |s - 2 * Real.pi * d| := by
      have := Real.abs_sin_sub_sin_le s (2 * Real.pi * d)
      simpa using this
    refine this.trans ?_
    rw [hs, show d * (3141592653589793 / 500000000000000) - 2 * Real.pi * d = d * (3141592653589793 / 500000000000000 - 2 * Real.pi) by ring, abs_mul]
    have hp1 := Real.pi_gt_d20
    have hp2 := Real.pi_lt_d20
    have : |3141592653589793 / 500000000000000 - 2 * Real.pi| ≤ 1 / 10000000 := abs_le.2 ⟨by norm_num at hp2 ⊢; linarith, by norm_num at hp1 ⊢; linarith⟩
    nlinarith [abs_nonneg d, abs_nonneg (3141592653589793 / 500000000000000 - 2 * Real.pi)]
  calc |oscPoly s - Real.sin (2 * Real.pi * d)|
      = |(oscPoly s - taylor s) + (taylor s - Real.sin s) + (Real.sin s - Real.sin (2 * Real.pi * d))| := by congr 1; ring
    _ ≤ |oscPoly s - taylor s| + |taylor s - Real.sin s| + |Real.sin s - Real.sin (2 * Real.pi * d)| := abs_add_three _ _ _
    _ ≤ 74 / 100000 + 1 / 5000000 + 1 / 10000000 := by rw [abs_sub_comm (taylor s)]; gcongr
    _ ≤ 3 / 4000 := by norm_num

end Verif.Sig
