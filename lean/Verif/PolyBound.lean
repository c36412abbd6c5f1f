import Mathlib.Data.Real.Basic
import Mathlib.Data.Rat.Cast.Order
import Mathlib.Tactic.Linarith
import Mathlib.Tactic.Positivity
import Mathlib.Tactic.NormNum
import Mathlib.Tactic.Ring
/-!
Bounds of polynomials with rational coefficients on intervals of real numbers, by interval arithmetic on small pieces.  This is a method of
proof, not a model of code: `bound` says that a polynomial is bounded at every real number of an interval if the computation, which the
kernel does, succeeds.
-/
namespace Verif.PolyBound

/-- the value of a polynomial, coefficients from the lowest -/
def ev : List ℚ → ℝ → ℝ
  | [], _ => 0
  | c :: cs, x => c + x * ev cs x

/-- bounds of the product of two intervals -/
def mulLo (a b c d : ℚ) : ℚ := min (min (a * c) (a * d)) (min (b * c) (b * d))
def mulHi (a b c d : ℚ) : ℚ := max (max (a * c) (a * d)) (max (b * c) (b * d))

/-- bounds of a polynomial on an interval -/
def hor : List ℚ → ℚ → ℚ → ℚ × ℚ
  | [], _, _ => (0, 0)
  | c :: cs, lo, hi => (c + mulLo lo hi (hor cs lo hi).1 (hor cs lo hi).2, c + mulHi lo hi (hor cs lo hi).1 (hor cs lo hi).2)

theorem mul_mem {a b c d : ℚ} {x y : ℝ} (h1 : (a : ℝ) ≤ x) (h2 : x ≤ b) (h3 : (c : ℝ) ≤ y) (h4 : y ≤ d) :
    ((mulLo a b c d : ℚ) : ℝ) ≤ x * y ∧ x * y ≤ ((mulHi a b c d : ℚ) : ℝ) := by
  unfold mulLo mulHi
  push_cast
  have key : ∀ z : ℝ, (c : ℝ) ≤ z → z ≤ d → min ((a : ℝ) * z) (b * z) ≤ x * z ∧ x * z ≤ max ((a : ℝ) * z) (b * z) := by
    intro z _ _
    rcases le_total 0 z with hz | hz
    · exact ⟨(min_le_left _ _).trans (mul_le_mul_of_nonneg_right h1 hz), (mul_le_mul_of_nonneg_right h2 hz).trans (le_max_right _ _)⟩
    · exact ⟨(min_le_right _ _).trans (mul_le_mul_of_nonpos_right h2 hz), (mul_le_mul_of_nonpos_right h1 hz).trans (le_max_left _ _)⟩
  have side : ∀ w : ℝ, min (w * c) (w * d) ≤ w * y ∧ w * y ≤ max (w * c) (w * d) := by
    intro w
    rcases le_total 0 w with hw | hw
    · exact ⟨(min_le_left _ _).trans (mul_le_mul_of_nonneg_left h3 hw), (mul_le_mul_of_nonneg_left h4 hw).trans (le_max_right _ _)⟩
    · exact ⟨(min_le_right _ _).trans (mul_le_mul_of_nonpos_left h4 hw), (mul_le_mul_of_nonpos_left h3 hw).trans (le_max_left _ _)⟩
  obtain ⟨k1, k2⟩ := key y h3 h4
  obtain ⟨sa1, sa2⟩ := side a
  obtain ⟨sb1, sb2⟩ := side b
  constructor
  · refine le_trans (le_min ?_ ?_) k1
    · exact (min_le_left _ _).trans sa1
    · exact (min_le_right _ _).trans sb1
  · refine k2.trans (max_le ?_ ?_)
    · exact sa2.trans (le_max_left _ _)
    · exact sb2.trans (le_max_right _ _)

theorem hor_mem (cs : List ℚ) {lo hi : ℚ} {x : ℝ} (h1 : (lo : ℝ) ≤ x) (h2 : x ≤ hi) :
    (((hor cs lo hi).1 : ℚ) : ℝ) ≤ ev cs x ∧ ev cs x ≤ ((hor cs lo hi).2 : ℚ) := by
  induction cs with
  | nil => simp [hor, ev]
  | cons c cs ih =>
    obtain ⟨m1, m2⟩ := mul_mem h1 h2 ih.1 ih.2
    simp only [hor, ev]
    push_cast
    exact ⟨by linarith, by linarith⟩

/-- the polynomial is in `[-b, b]` on each of the `n` pieces of width `w` from `lo` on -/
def check (cs : List ℚ) (b : ℚ) (w : ℚ) : ℕ → ℚ → Bool
  | 0, _ => true
  | n + 1, lo => decide (-b ≤ (hor cs lo (lo + w)).1) && decide ((hor cs lo (lo + w)).2 ≤ b) && check cs b w n (lo + w)

theorem bound {cs : List ℚ} {b w : ℚ} : ∀ {n : ℕ} {lo : ℚ}, check cs b w n lo = true → 0 < n → ∀ {x : ℝ}, (lo : ℝ) ≤ x → x ≤ lo + n * w →
    |ev cs x| ≤ b
  | 0, _, _, hn, _, _, _ => absurd hn (lt_irrefl 0)
  | n + 1, lo, h, _, x, h1, h2 => by
    simp only [check, Bool.and_eq_true, decide_eq_true_eq] at h
    by_cases hx : x ≤ ((lo + w : ℚ) : ℝ)
    · obtain ⟨m1, m2⟩ := hor_mem cs h1 hx
      have e1 : ((-b : ℚ) : ℝ) ≤ ((hor cs lo (lo + w)).1 : ℚ) := by exact_mod_cast h.1.1
      have e2 : (((hor cs lo (lo + w)).2 : ℚ) : ℝ) ≤ (b : ℚ) := by exact_mod_cast h.1.2
      push_cast at e1
      exact abs_le.2 ⟨by linarith, by linarith⟩
    · have hx := le_of_lt (not_le.1 hx)
      rcases Nat.eq_zero_or_pos n with rfl | hn
      · push_cast at h2 hx
        have : x = lo + w := by linarith
        obtain ⟨m1, m2⟩ := hor_mem cs (lo := lo) (hi := lo + w) h1 (by push_cast; linarith)
        have e1 : ((-b : ℚ) : ℝ) ≤ ((hor cs lo (lo + w)).1 : ℚ) := by exact_mod_cast h.1.1
        have e2 : (((hor cs lo (lo + w)).2 : ℚ) : ℝ) ≤ (b : ℚ) := by exact_mod_cast h.1.2
        push_cast at e1
        exact abs_le.2 ⟨by linarith, by linarith⟩
      · refine bound h.2 hn hx ?_
        push_cast at h2 ⊢
        linarith

end Verif.PolyBound
