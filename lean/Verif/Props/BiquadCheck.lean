import Verif.BiquadCheck
import Mathlib.Tactic.Linarith
import Mathlib.Tactic.LinearCombination
import Mathlib.Tactic.Positivity
import Mathlib.Tactic.FieldSimp
import Mathlib.Analysis.Complex.Polynomial.Basic
/-!
# C80: the stability check of debug builds
-/
namespace Verif.BiquadCheck

/-- the filter y(n) = ... - a1 y(n-1) - a2 y(n-2) is stable: its poles are inside the unit circle -/
def Stable (a1 a2 : ℝ) : Prop := ∀ z : ℂ, z ^ 2 + a1 * z + a2 = 0 → ‖z‖ < 1

theorem stable_of_roots {a1 a2 : ℝ} {p q : ℂ} (h : ∀ z : ℂ, z ^ 2 + a1 * z + a2 = (z - p) * (z - q)) : Stable a1 a2 ↔ ‖p‖ < 1 ∧ ‖q‖ < 1 := by
  constructor
  · intro hs
    exact ⟨hs p (by rw [h]; ring), hs q (by rw [h]; ring)⟩
  · rintro ⟨hp, hq⟩ z hz
    rw [h, mul_eq_zero, sub_eq_zero, sub_eq_zero] at hz
    rcases hz with rfl | rfl <;> assumption

theorem alpha_zero_iff (a1 a2 : ℝ) (hk : 0 ≤ a1 * a1 - 4 * a2) : (a1 + √|a1 * a1 - 4 * a2|) * 0.5 = 0 ↔ a1 ≤ 0 ∧ a2 = 0 := by
  rw [abs_of_nonneg hk]
  constructor
  · intro h
    have h1 : √(a1 * a1 - 4 * a2) = -a1 := by linarith
    have h2 := Real.sq_sqrt hk
    have h3 := Real.sqrt_nonneg (a1 * a1 - 4 * a2)
    rw [h1] at h2 h3
    exact ⟨by linarith, by nlinarith⟩
  · rintro ⟨h1, rfl⟩
    rw [mul_zero, sub_zero, Real.sqrt_mul_self_eq_abs, abs_of_nonpos h1]
    ring

/-- **C80** the check passes exactly for the stable filters, except those with a2 = 0 and a1 ≤ 0 -/
theorem check_right (a1 a2 : ℝ) (h : ¬ (a1 ≤ 0 ∧ a2 = 0)) : passes a1 a2 ↔ Stable a1 a2 := by
  unfold passes moduli
  by_cases hk : a1 * a1 - 4 * a2 < 0
  · -- complex poles
    have hl : √|a1 * a1 - 4 * a2| ^ 2 = 4 * a2 - a1 * a1 := by
      rw [Real.sq_sqrt (abs_nonneg _), abs_of_neg hk]; ring
    generalize hL : √|a1 * a1 - 4 * a2| = l at hl
    have ha2 : 0 < a2 := by nlinarith [mul_self_nonneg a1]
    have hm : a1 * 0.5 * (a1 * 0.5) + l * 0.5 * (l * 0.5) = a2 := by nlinarith
    simp only [hk, if_true, hL]
    simp only [hm, ha2.ne', if_false]
    have hb : a2 * (a1 * 0.5) / a2 * (a2 * (a1 * 0.5) / a2) + a2 * -(l * 0.5) / a2 * (a2 * -(l * 0.5) / a2) = a2 := by
      rw [mul_div_cancel_left₀ _ ha2.ne', mul_div_cancel_left₀ _ ha2.ne']
      nlinarith
    rw [hb]
    have hf : ∀ z : ℂ, z ^ 2 + a1 * z + a2 = (z - (⟨-a1 / 2, l / 2⟩ : ℂ)) * (z - (⟨-a1 / 2, -l / 2⟩ : ℂ)) := by
      intro z
      apply Complex.ext
      · simp [pow_two]; nlinarith
      · simp [pow_two]; ring
    rw [stable_of_roots hf]
    have n1 : ‖(⟨-a1 / 2, l / 2⟩ : ℂ)‖ = √a2 := by
      rw [Complex.norm_def, Complex.normSq_mk]; congr 1; nlinarith
    have n2 : ‖(⟨-a1 / 2, -l / 2⟩ : ℂ)‖ = √a2 := by
      rw [Complex.norm_def, Complex.normSq_mk]; congr 1; nlinarith
    rw [n1, n2]
  · have hk' : 0 ≤ a1 * a1 - 4 * a2 := not_lt.1 hk
    have hl : √|a1 * a1 - 4 * a2| ^ 2 = a1 * a1 - 4 * a2 := by
      rw [Real.sq_sqrt (abs_nonneg _), abs_of_nonneg hk']
    have hz := (alpha_zero_iff a1 a2 hk').not.2 h
    generalize hL : √|a1 * a1 - 4 * a2| = l at hl hz
    simp only [hk, if_false, hL, hz]
    have hf : ∀ z : ℂ, z ^ 2 + a1 * z + a2 = (z - ((-((a1 + l) * 0.5) : ℝ) : ℂ)) * (z - ((-(a2 / ((a1 + l) * 0.5)) : ℝ) : ℂ)) := by
      intro z
      have e1 : (a1 + l) * 0.5 + a2 / ((a1 + l) * 0.5) = a1 := by
        have h1 : a2 = (a1 - (a1 + l) * 0.5) * ((a1 + l) * 0.5) := by linear_combination hl / 4
        rw [(div_eq_iff hz).2 h1]
        ring
      have e2 : (a1 + l) * 0.5 * (a2 / ((a1 + l) * 0.5)) = a2 := mul_div_cancel₀ _ hz
      generalize (a1 + l) * 0.5 = p at e1 e2
      generalize a2 / p = q at e1 e2
      rw [← e1, ← e2]
      push_cast
      ring
    rw [stable_of_roots hf]
    rw [Complex.norm_real, Complex.norm_real, Real.norm_eq_abs, Real.norm_eq_abs, abs_neg, abs_neg]

/-- **C80** (finding): in those cases it fails whatever the filter; some of them are stable, among them the initial coefficients
a1 = a2 = 0 of every [biquad~] and [bp~], so that a debug build stops at once -/
theorem check_wrong {a1 : ℝ} (h : a1 ≤ 0) : ¬ passes a1 0 ∧ (Stable a1 0 ↔ -1 < a1) := by
  constructor
  · have hk : ¬ a1 * a1 - 4 * 0 < 0 := by nlinarith [mul_self_nonneg a1]
    have hz := (alpha_zero_iff a1 0 (not_lt.1 hk)).2 ⟨h, rfl⟩
    unfold passes moduli
    simp only [hk, if_false, hz, if_true]
    exact id
  · have hf : ∀ z : ℂ, z ^ 2 + a1 * z + ((0 : ℝ) : ℂ) = (z - ((0 : ℝ) : ℂ)) * (z - ((-a1 : ℝ) : ℂ)) := by
      intro z; push_cast; ring
    rw [stable_of_roots hf, Complex.norm_real, Complex.norm_real, Real.norm_eq_abs, Real.norm_eq_abs, abs_neg, abs_of_nonpos h]
    simp
    constructor <;> intro h <;> linarith

theorem check_initial : ¬ passes 0 0 ∧ Stable 0 0 :=
  ⟨(check_wrong le_rfl).1, (check_wrong le_rfl).2.2 (by norm_num)⟩

/-- **C80** in terms of the coefficients: the triangle -/
theorem stable_triangle (a1 a2 : ℝ) : Stable a1 a2 ↔ |a1| < 1 + a2 ∧ a2 < 1 := by
  by_cases hk : a1 * a1 - 4 * a2 < 0
  · obtain ⟨l, hl⟩ : ∃ l : ℝ, l ^ 2 = 4 * a2 - a1 * a1 := ⟨√(4 * a2 - a1 * a1), Real.sq_sqrt (by linarith)⟩
    have ha2 : 0 < a2 := by nlinarith [mul_self_nonneg a1]
    have hf : ∀ z : ℂ, z ^ 2 + a1 * z + a2 = (z - (⟨-a1 / 2, l / 2⟩ : ℂ)) * (z - (⟨-a1 / 2, -l / 2⟩ : ℂ)) := by
      intro z
      apply Complex.ext
      · simp [pow_two]; nlinarith
      · simp [pow_two]; ring
    have n1 : ‖(⟨-a1 / 2, l / 2⟩ : ℂ)‖ = √a2 := by
      rw [Complex.norm_def, Complex.normSq_mk]; congr 1; nlinarith
    have n2 : ‖(⟨-a1 / 2, -l / 2⟩ : ℂ)‖ = √a2 := by
      rw [Complex.norm_def, Complex.normSq_mk]; congr 1; nlinarith
    rw [stable_of_roots hf, n1, n2, and_self]
    rw [Real.sqrt_lt' one_pos, one_pow]
    constructor
    · intro h
      refine ⟨?_, h⟩
      rw [abs_lt]
      constructor <;> nlinarith [sq_nonneg (a1 - 2), sq_nonneg (a1 + 2)]
    · exact fun h => h.2
  · have hk' : 0 ≤ a1 * a1 - 4 * a2 := not_lt.1 hk
    obtain ⟨l, hl0, hl⟩ : ∃ l : ℝ, 0 ≤ l ∧ l ^ 2 = a1 * a1 - 4 * a2 := ⟨√(a1 * a1 - 4 * a2), Real.sqrt_nonneg _, Real.sq_sqrt hk'⟩
    have hf : ∀ z : ℂ, z ^ 2 + a1 * z + a2 = (z - (((-a1 + l) / 2 : ℝ) : ℂ)) * (z - (((-a1 - l) / 2 : ℝ) : ℂ)) := by
      intro z
      have e : a2 = (-a1 + l) / 2 * ((-a1 - l) / 2) := by nlinarith
      have e' : (a2 : ℂ) = (((-a1 + l) / 2 : ℝ) : ℂ) * (((-a1 - l) / 2 : ℝ) : ℂ) := by rw [← Complex.ofReal_mul, ← e]
      rw [e']
      push_cast
      ring
    rw [stable_of_roots hf, Complex.norm_real, Complex.norm_real, Real.norm_eq_abs, Real.norm_eq_abs, abs_lt, abs_lt, abs_lt]
    constructor
    · rintro ⟨⟨h1, h2⟩, h3, h4⟩
      have : a2 = (-a1 + l) / 2 * ((-a1 - l) / 2) := by nlinarith
      refine ⟨⟨?_, ?_⟩, ?_⟩ <;> nlinarith
    · rintro ⟨⟨h1, h2⟩, h3⟩
      have hl1 : l < 2 - |a1| := by
        have ha : |a1| < 2 := by rw [abs_lt]; constructor <;> linarith
        have : l ^ 2 < (2 - |a1|) ^ 2 := by
          rw [hl]
          rcases abs_cases a1 with ⟨e, _⟩ | ⟨e, _⟩ <;> rw [e] <;> nlinarith
        exact lt_of_pow_lt_pow_left₀ 2 (by linarith) this
      have := abs_le.1 (le_refl |a1|)
      refine ⟨⟨?_, ?_⟩, ?_, ?_⟩ <;> linarith [neg_abs_le a1, le_abs_self a1]

/-- 0.5 and 0.9 twice are stable, 1.1 is not -/
example : passes (-1.4) 0.45 ∧ ¬ passes (-2) 0.99 := by
  rw [check_right _ _ (by norm_num), check_right _ _ (by norm_num), stable_triangle, stable_triangle]
  constructor
  · rw [abs_lt]; norm_num
  · rw [abs_lt]; norm_num

end Verif.BiquadCheck
