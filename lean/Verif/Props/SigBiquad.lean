import Verif.Lib.Bp
import Verif.Sig.Bp
import Verif.Props.SigFilter
import Verif.Props.BiquadCheck
/-!
# C75 (continued): `[bp~]`, and filters with two poles
-/
namespace Verif.Lib
open Verif.Control (Dest Kind Cast Patch Act Sys Env Big)

/-- the number of a message to inlet `i` -/
def numAt (i : Nat) : Ev → Option ℚ
  | .ext _ j [.float q] => if j = i then some q else none
  | _ => none

/-- the last number that came at inlet `i`, or the argument -/
def lastAt (i : Nat) (a : ℚ) (es : List Ev) : ℚ := (es.filterMap (numAt i)).getLast?.getD a

/-- numbers, and bangs, at the inlets 1 and 2 -/
def TwoNums : Ev → Prop
  | .ext _ i m => (i = 1 ∨ i = 2) ∧ (m = [.bang] ∨ ∃ q, m = [.float q])
  | .tick => False

/-- as a state -/
def twoStep (p : ℚ × ℚ) : Ev → ℚ × ℚ
  | .ext _ j [.float q] => (if j = 1 then q else p.1, if j = 2 then q else p.2)
  | _ => p

theorem two_fold (p : ℚ × ℚ) (es : List Ev) : es.foldl twoStep p = (lastAt 1 p.1 es, lastAt 2 p.2 es) := by
  induction es using List.reverseRecOn with
  | nil => rfl
  | append_singleton es e ih =>
    rw [List.foldl_append, ih]
    show twoStep (lastAt 1 p.1 es, lastAt 2 p.2 es) e = _
    unfold twoStep lastAt
    rw [List.filterMap_append, List.filterMap_append]
    split
    · next j q => by_cases h1 : j = 1 <;> by_cases h2 : j = 2 <;> simp [numAt, h1, h2]
    · next h =>
      have : ∀ i, numAt i e = none := by
        intro i
        unfold numAt
        split
        · next j q => exact absurd rfl (h _ _ _)
        · rfl
      simp [this]

namespace Bp
variable {a1 a2 : ℚ} {c : Ctx} {s : St}

/-- 2π f / sample rate -/
def omega (c : Ctx) (f : ℚ) : ℚ := f * 6.28319 / c.sr
/-- the distance of the poles from the unit circle: the frequency by q, at most 1 -/
def gap (c : Ctx) (f q : ℚ) : ℚ := min (omega c f / max q 0.001) 1
/-- the radius of the poles -/
def radius (c : Ctx) (f q : ℚ) : ℚ := 1 - gap c f q
/-- the coefficients of the filter -/
def ff0 (c : Ctx) (f q : ℚ) : ℚ := 2 * gap c f q * (gap c f q + radius c f q * omega c f)
def fb1 (c : Ctx) (f q : ℚ) : ℚ := -(2 * radius c f q * fnEval c "cos" (omega c f))
def fb2 (c : Ctx) (f q : ℚ) : ℚ := powEval c (radius c f q) 2

/-- what the objects keep -/
structure Mem (c : Ctx) (p : ℚ × ℚ) (s : St) : Prop where
  fc : s.mem 14 = [.float p.1]
  q : s.mem 22 = [.float p.2]
  sr : s.mem 4 = [.float c.sr]
  lim : s.mem 27 = [.float (max p.2 0.001)]
  queue : s.q = []
  s0 : lastSent s.log 2 = some (ff0 c p.1 p.2)
  s1 : lastSent s.log 1 = some (fb1 c p.1 p.2)
  s2 : lastSent s.log 0 = some (fb2 c p.1 p.2)

theorem lim_ne (q : ℚ) : max q 0.001 ≠ 0 := (lt_of_lt_of_le (by norm_num) (le_max_right q 0.001)).ne'

theorem boot (hc : 0 < c.sr) (tab : Nat → List ℚ) :
    ∃ s, Ends (sys a1 a2 c) [((12, 0), [.bang])] (start c (nodes a1 a2) tab) s ∧ Mem c (a1, a2) s := by
  have h1 : (start c (nodes a1 a2) tab).mem 14 = [.float a1] := rfl
  have h2 : (start c (nodes a1 a2) tab).mem 22 = [.float a2] := rfl
  have h3 : (start c (nodes a1 a2) tab).q = [] := rfl
  have h4 : (start c (nodes a1 a2) tab).log = [] := rfl
  have hl := lim_ne a2
  refine ⟨?s1, ?h1, ?_⟩
  case h1 =>
    simp [lib_step, lib_bp, h1, h2, Op.eval, hc.ne', hl]
    rfl
  refine ⟨?_, ?_, ?_, ?_, ?_, ?_, ?_, ?_⟩
  all_goals simp [lib_step, h1, h2, h3, h4, lastSent, ff0, fb1, fb2, radius, gap, omega]
  all_goals ring_nf

theorem run_fc (hc : 0 < c.sr) {t : Nat} {p : ℚ × ℚ} {f : ℚ} (h : Mem c p s) :
    ∃ s', Ends (sys a1 a2 c) [((0, 1), [.float f])] { s with now := t } s' ∧ Mem c (f, p.2) s' := by
  obtain ⟨h1, h2, h3, h4, h5, -, -, -⟩ := h
  have hl := lim_ne p.2
  refine ⟨?s1, ?h1, ?_⟩
  case h1 =>
    simp [lib_step, lib_bp, h3, h4, Op.eval, hc.ne', hl]
    rfl
  refine ⟨?_, ?_, ?_, ?_, ?_, ?_, ?_, ?_⟩
  all_goals simp [lib_step, h2, h3, h4, h5, lastSent, ff0, fb1, fb2, radius, gap, omega]
  all_goals ring_nf

theorem run_bang (hc : 0 < c.sr) {t : Nat} {p : ℚ × ℚ} (h : Mem c p s) :
    ∃ s', Ends (sys a1 a2 c) [((0, 1), [.bang])] { s with now := t } s' ∧ Mem c p s' := by
  obtain ⟨h1, h2, h3, h4, h5, -, -, -⟩ := h
  have hl := lim_ne p.2
  refine ⟨?s1, ?h1, ?_⟩
  case h1 =>
    simp [lib_step, lib_bp, h1, h3, h4, Op.eval, hc.ne', hl]
    rfl
  refine ⟨?_, ?_, ?_, ?_, ?_, ?_, ?_, ?_⟩
  all_goals simp [lib_step, h1, h2, h3, h4, h5, lastSent, ff0, fb1, fb2, radius, gap, omega]
  all_goals ring_nf

theorem run_q (hc : 0 < c.sr) {t : Nat} {p : ℚ × ℚ} {q : ℚ} (h : Mem c p s) :
    ∃ s', Ends (sys a1 a2 c) [((0, 2), [.float q])] { s with now := t } s' ∧ Mem c (p.1, q) s' := by
  obtain ⟨h1, h2, h3, h4, h5, -, -, -⟩ := h
  have hl := lim_ne q
  refine ⟨?s1, ?h1, ?_⟩
  case h1 =>
    simp [lib_step, lib_bp, h1, h3, Op.eval, hc.ne', hl]
    rfl
  refine ⟨?_, ?_, ?_, ?_, ?_, ?_, ?_, ?_⟩
  all_goals simp [lib_step, h1, h3, h5, lastSent, ff0, fb1, fb2, radius, gap, omega]
  all_goals ring_nf

theorem run_qbang (hc : 0 < c.sr) {t : Nat} {p : ℚ × ℚ} (h : Mem c p s) :
    ∃ s', Ends (sys a1 a2 c) [((0, 2), [.bang])] { s with now := t } s' ∧ Mem c p s' := by
  obtain ⟨h1, h2, h3, h4, h5, -, -, -⟩ := h
  have hl := lim_ne p.2
  refine ⟨?s1, ?h1, ?_⟩
  case h1 =>
    simp [lib_step, lib_bp, h1, h2, h3, Op.eval, hc.ne', hl]
    rfl
  refine ⟨?_, ?_, ?_, ?_, ?_, ?_, ?_, ?_⟩
  all_goals simp [lib_step, h1, h2, h3, h5, lastSent, ff0, fb1, fb2, radius, gap, omega]
  all_goals ring_nf

theorem simulates (hc : 0 < c.sr) (tab : Nat → List ℚ) :
    Simulates (mach a1 a2 c) drv (start c (nodes a1 a2) tab) TwoNums twoStep (a1, a2) (Mem c) where
  boot := boot hc tab
  step {p s e} hs hf hcan := by
    match e, hf with
    | .ext t i m, ⟨h1, h2⟩ =>
      rcases h1 with rfl | rfl
      · rcases h2 with rfl | ⟨q, rfl⟩
        · obtain ⟨s', h3, h4⟩ := run_bang (a1 := a1) (a2 := a2) hc (t := t) hs
          exact ⟨s', happens_ext.mpr ⟨hcan.1, hcan.2, h3⟩, h4⟩
        · obtain ⟨s', h3, h4⟩ := run_fc (a1 := a1) (a2 := a2) hc (t := t) (f := q) hs
          exact ⟨s', happens_ext.mpr ⟨hcan.1, hcan.2, h3⟩, h4⟩
      · rcases h2 with rfl | ⟨q, rfl⟩
        · obtain ⟨s', h3, h4⟩ := run_qbang (a1 := a1) (a2 := a2) hc (t := t) hs
          exact ⟨s', happens_ext.mpr ⟨hcan.1, hcan.2, h3⟩, h4⟩
        · obtain ⟨s', h3, h4⟩ := run_q (a1 := a1) (a2 := a2) hc (t := t) (q := q) hs
          exact ⟨s', happens_ext.mpr ⟨hcan.1, hcan.2, h3⟩, h4⟩

theorem inlet_of {e : Ev} (he : TwoNums e) : Inlet e := by
  cases e with
  | ext t i m => rcases he.1 with rfl | rfl <;> simp [Inlet]
  | tick => exact he.elim

/-- **C75** the messages in `[bp~]`: in the generated code, after every history of numbers and bangs at the two right inlets, the
coefficients of the filter are those of the frequency and the q that came last (or the arguments) -/
theorem coefficients (hc : 0 < c.sr) (M : Mach) (hM : Code a1 a2 c M) (tab : Nat → List ℚ) (es : List Ev) (hes : ∀ e ∈ es, TwoNums e) (s : St)
    (hr : Runs M drv (start c (nodes a1 a2) tab) es s) :
    lastSent s.log 2 = some (ff0 c (lastAt 1 a1 es) (lastAt 2 a2 es)) ∧ lastSent s.log 1 = some (fb1 c (lastAt 1 a1 es) (lastAt 2 a2 es)) ∧
      lastSent s.log 0 = some (fb2 c (lastAt 1 a1 es) (lastAt 2 a2 es)) := by
  have h := (to_code hM (Fits := TwoNums) (fun _ => inlet_of) (simulates (a1 := a1) (a2 := a2) hc tab)).runs hes hr
  rw [two_fold] at h
  exact ⟨h.1.s0, h.1.s1, h.1.s2⟩

end Bp
end Verif.Lib

namespace Verif.Sig
open Verif.Reduce
open Verif.Simd (D IsBiquad)
open Verif.BiquadCheck (Stable)
open Verif.Lib (Msg Ctx Mach Ev St Runs TwoNums lastAt lastSent start fnEval powEval)

/-! ### two poles -/

theorem pole_bound {z v : ℕ → ℂ} {q : ℂ} {U : ℝ} (hq : ‖q‖ < 1) (h : ∀ t, z t = v t + q * D z 1 t) (hv : ∀ t, ‖v t‖ ≤ U) (t : ℕ) :
    ‖z t‖ ≤ U / (1 - ‖q‖) := by
  have hU : 0 ≤ U := (norm_nonneg _).trans (hv 0)
  have h1 : 0 < 1 - ‖q‖ := by linarith
  have step : ∀ t, ‖D z 1 t‖ ≤ U / (1 - ‖q‖) → ‖z t‖ ≤ U / (1 - ‖q‖) := by
    intro t hd
    rw [h t]
    calc ‖v t + q * D z 1 t‖ ≤ ‖v t‖ + ‖q‖ * ‖D z 1 t‖ := (norm_add_le _ _).trans (by rw [norm_mul])
      _ ≤ U + ‖q‖ * (U / (1 - ‖q‖)) := by gcongr; exact hv t
      _ = U / (1 - ‖q‖) := by field_simp; ring
  induction t with
  | zero => exact step 0 (by simp [D]; positivity)
  | succ t ih => exact step (t + 1) (by simpa [D] using ih)

theorem roots_exist (a1 a2 : ℝ) : ∃ p q : ℂ, p + q = -a1 ∧ p * q = a2 := by
  obtain ⟨s, hs⟩ := IsAlgClosed.exists_pow_nat_eq ((a1 : ℂ) ^ 2 - 4 * a2) (n := 2) (by norm_num)
  exact ⟨(-a1 + s) / 2, (-a1 - s) / 2, by ring, by linear_combination (-1 / 4) * hs⟩

/-- **C75** a stable filter with steady coefficients: bounded inputs have bounded outputs, in proportion -/
theorem biquad_bounded (b0 b1 b2 : ℝ) {a1 a2 : ℝ} (hs : Stable a1 a2) :
    ∃ K : ℝ, ∀ (x y : ℕ → ℝ) (B : ℝ), IsBiquad x (fun _ => b0) (fun _ => b1) (fun _ => b2) (fun _ => a1) (fun _ => a2) y → (∀ t, |x t| ≤ B) →
      ∀ t, |y t| ≤ K * B := by
  obtain ⟨p, q, h1, h2⟩ := roots_exist a1 a2
  have hp : ‖p‖ < 1 := hs p (by linear_combination p * h1 - h2)
  have hq : ‖q‖ < 1 := hs q (by linear_combination q * h1 - h2)
  refine ⟨(|b0| + |b1| + |b2|) / (1 - ‖q‖) / (1 - ‖p‖), fun x y B h hx t => ?_⟩
  have hB : 0 ≤ B := (abs_nonneg _).trans (hx 0)
  have hxd : ∀ d t, |D x d t| ≤ B := by
    intro d t
    unfold D
    split
    · exact hx _
    · simpa using hB
  let Y : ℕ → ℂ := fun t => (y t : ℂ)
  let w : ℕ → ℂ := fun t => Y t - p * D Y 1 t
  let u : ℕ → ℝ := fun t => b0 * x t + b1 * D x 1 t + b2 * D x 2 t
  have hY : ∀ d t, D Y d t = ((D y d t : ℝ) : ℂ) := by intro d t; unfold D; split <;> simp [Y]
  have hu : ∀ t, ‖(u t : ℂ)‖ ≤ (|b0| + |b1| + |b2|) * B := by
    intro t
    rw [Complex.norm_real, Real.norm_eq_abs]
    calc |u t| ≤ |b0 * x t| + |b1 * D x 1 t| + |b2 * D x 2 t| := abs_add_three _ _ _
      _ ≤ |b0| * B + |b1| * B + |b2| * B := by simp only [abs_mul]; gcongr <;> first | exact hx _ | exact hxd _ _
      _ = _ := by ring
  have hw : ∀ t, w t = u t + q * D w 1 t := by
    intro t
    have e := h t
    have d : D w 1 t = D Y 1 t - p * D Y 2 t := by
      cases t with
      | zero => simp [D]
      | succ t => simp [w]
    rw [d]
    simp only [w, hY, Y, u]
    rw [e]
    push_cast
    linear_combination ((D y 1 t : ℝ) : ℂ) * h1.symm - ((D y 2 t : ℝ) : ℂ) * h2.symm
  have bw := pole_bound hq hw hu
  have by' := pole_bound (z := Y) (v := w) hp (fun t => by simp [w]) bw t
  rw [Complex.norm_real, Real.norm_eq_abs] at by'
  calc |y t| ≤ _ := by'
    _ = _ := by ring

/-- **C75** with the product of the poles beyond 1, the answer to an impulse grows beyond every bound -/
theorem biquad_grows {b0 a1 a2 : ℝ} (hb : b0 ≠ 0) (ha : 1 < a2) {y : ℕ → ℝ}
    (h : IsBiquad (fun t => if t = 0 then 1 else 0) (fun _ => b0) (fun _ => 0) (fun _ => 0) (fun _ => a1) (fun _ => a2) y) (B : ℝ) :
    ∃ t, B < |y t| := by
  by_contra hn
  push Not at hn
  have h0 : y 0 = b0 := by have := h 0; simpa [D] using this
  have h1 : y 1 = -a1 * b0 := by have := h 1; simpa [D, h0] using this
  have hr : ∀ n, y (n + 2) = -a1 * y (n + 1) - a2 * y n := by
    intro n
    have := h (n + 2)
    simp [D] at this
    rw [this]; ring
  have hc : ∀ n, y (n + 2) * y n - y (n + 1) ^ 2 = -(a2 ^ (n + 1) * b0 ^ 2) := by
    intro n
    induction n with
    | zero => rw [hr 0]; simp only [Nat.zero_add]; rw [h1, h0]; ring
    | succ n ih =>
      rw [hr (n + 1), pow_succ a2 (n + 1)]
      have e := hr n
      linear_combination a2 * ih - y (n + 2) * e
  have hB : 0 ≤ B := (abs_nonneg _).trans (hn 0)
  obtain ⟨n, hn'⟩ := pow_unbounded_of_one_lt (2 * B ^ 2 / b0 ^ 2) ha
  have hb2 : 0 < b0 ^ 2 := by positivity
  rw [div_lt_iff₀ hb2] at hn'
  have e := hc n
  have hle : a2 ^ n ≤ a2 ^ (n + 1) := pow_le_pow_right₀ ha.le (Nat.le_succ n)
  have b1 := hn n
  have b2 := hn (n + 1)
  have b3 := hn (n + 2)
  have m1 : |y (n + 2) * y n| ≤ B * B := by rw [abs_mul]; gcongr
  have m2 : y (n + 1) ^ 2 ≤ B ^ 2 := by rw [← sq_abs]; gcongr
  have := (abs_le.1 m1).1
  nlinarith [mul_le_mul_of_nonneg_right hle hb2.le]

/-! ### `[bp~]` -/

/-- the object `o` is a `__biquad_k~f` with the standard arguments: it filters with the numbers that came last at its inlets (C53: the
generated code does; HvSignalBiquad.c:238-250, default values of heavy.ir.json) -/
def IsBiquadK (W : World ℝ Msg) (o : ℕ) : Prop := ∀ sig ms, IsBiquad (sig 0) (fun t => held W 1 (ms 1 t)) (fun t => held W 0 (ms 2 t))
  (fun t => held W 0 (ms 3 t)) (fun t => held W 0 (ms 4 t)) (fun t => held W 0 (ms 5 t)) (W.beh o sig ms 0)

/-- the code of `[bp~]` runs beside the signals -/
def BpRuns (a1 a2 : ℚ) (c : Ctx) (M : Mach) (tab : ℕ → List ℚ) (es : ℕ → List Ev) (log : ℕ → List (Sent Msg)) : Prop :=
  ∀ t, ∃ s, Runs M Lib.Bp.drv (start c (Lib.Bp.nodes a1 a2) tab) (es t) s ∧ SentBy (log t) 27 s.log 2 ∧ SentBy (log t) 21 s.log 1 ∧
    SentBy (log t) 20 s.log 0

/-- a filter with one gain and two poles: y[n] = g x[n] - a1 y[n-1] - a2 y[n-2] -/
def IsTwoPole (x g a1 a2 y : ℕ → ℝ) : Prop := ∀ t, y t = g t * x t - a1 t * D y 1 t - a2 t * D y 2 t

section bp
variable {W : World ℝ Msg} {log : ℕ → List (Sent Msg)} {v : ℕ → ℕ → ℕ → ℝ} {a1 a2 : ℚ} {c : Ctx} {M : Mach} {tab : ℕ → List ℚ}
  {es : ℕ → List Ev}

/-- **C75** `[bp~]`: y[n] = g x[n] - a1 y[n-1] - a2 y[n-2] with the coefficients of the frequency and the q that came last -/
theorem bp_tilde (hn : W.num = firstNum) (hp : Named (Bp.special a1 a2) "biquad" (fun o as => as = [] ∧ IsBiquadK W o)) (h : Solves W (Bp.patch a1 a2) log v) (hc : 0 < c.sr)
    (hM : Lib.Bp.Code a1 a2 c M) (hr : BpRuns a1 a2 c M tab es log) (hes : ∀ t, ∀ e ∈ es t, TwoNums e) :
    IsTwoPole (v Bp.in0 0) (fun t => ((Lib.Bp.ff0 c (lastAt 1 a1 (es t)) (lastAt 2 a2 (es t)) : ℚ) : ℝ))
      (fun t => ((Lib.Bp.fb1 c (lastAt 1 a1 (es t)) (lastAt 2 a2 (es t)) : ℚ) : ℝ))
      (fun t => ((Lib.Bp.fb2 c (lastAt 1 a1 (es t)) (lastAt 2 a2 (es t)) : ℚ) : ℝ)) (inSum v ((Bp.patch a1 a2).ins Bp.out0 0)) := by
  intro t
  obtain ⟨s, hs, h0, h1, h2⟩ := hr t
  obtain ⟨c0, c1, c2⟩ := Lib.Bp.coefficients hc M hM tab (es t) (hes t) s hs
  have hb := h 7 (by simp [Bp.patch, ofConns])
  simp only [Obeys, Bp.patch, ofConns, Bp.kind] at hb
  have hp := (hp 7 [] (by simp [Bp.special])).2
  have hq := hp (fun i t => inSum v ((Bp.patch (a1 : ℝ) a2).ins 7 i) t) (fun i t => received (log t) ((Bp.patch (a1 : ℝ) a2).ins 7 i))
  have e : W.beh 7 (fun i t => inSum v ((Bp.patch (a1 : ℝ) a2).ins 7 i) t) (fun i t => received (log t) ((Bp.patch (a1 : ℝ) a2).ins 7 i)) 0 = v 7 0 :=
    funext fun t => (hb 0 t).symm
  rw [e] at hq
  have i0 : (fun t => inSum v ((Bp.patch (a1 : ℝ) a2).ins 7 0) t) = v 0 0 := by
    funext t; simp [Bp.patch, ofConns, Bp.conns, Conn.into, inSum]
  have i1 : (Bp.patch (a1 : ℝ) a2).ins 7 1 = [⟨27, 0, 7, 1, .c⟩] := by simp [Bp.patch, ofConns, Bp.conns, Conn.into]
  have i2 : (Bp.patch (a1 : ℝ) a2).ins 7 2 = [] := by simp [Bp.patch, ofConns, Bp.conns, Conn.into]
  have i3 : (Bp.patch (a1 : ℝ) a2).ins 7 3 = [] := by simp [Bp.patch, ofConns, Bp.conns, Conn.into]
  have i4 : (Bp.patch (a1 : ℝ) a2).ins 7 4 = [⟨21, 0, 7, 4, .c⟩] := by simp [Bp.patch, ofConns, Bp.conns, Conn.into]
  have i5 : (Bp.patch (a1 : ℝ) a2).ins 7 5 = [⟨20, 0, 7, 5, .c⟩] := by simp [Bp.patch, ofConns, Bp.conns, Conn.into]
  have ho : inSum v ((Bp.patch (a1 : ℝ) a2).ins Bp.out0 0) = v 7 0 := funext fun t => Bp.o0 t
  rw [i0] at hq
  have ht := hq t
  simp only [i1, i2, i3, i4, i5] at ht
  rw [held_code hn h0 c0, held_code hn h1 c1, held_code hn h2 c2, held_nil] at ht
  rw [ho, ht]
  ring

/-- **C75** for frequencies above 0 the filter is stable, whatever the q, if the C library's `cosf` keeps to -1...1 and its `powf` squares
with an error below (1 - r)², the square of the distance of the poles from the circle -/
theorem bp_stable (hc : 0 < c.sr) {f q : ℚ} (hf : 0 < f) (hcos : |fnEval c "cos" (Lib.Bp.omega c f)| ≤ 1)
    (hpow : 0 < Lib.Bp.radius c f q → |c.powf (Lib.Bp.radius c f q) 2 - Lib.Bp.radius c f q ^ 2| < (1 - Lib.Bp.radius c f q) ^ 2) :
    Stable ((Lib.Bp.fb1 c f q : ℚ) : ℝ) ((Lib.Bp.fb2 c f q : ℚ) : ℝ) := by
  have hω : 0 < Lib.Bp.omega c f := by unfold Lib.Bp.omega; positivity
  have hq : 0 < max q 0.001 := lt_of_lt_of_le (by norm_num) (le_max_right _ _)
  have hg : 0 < Lib.Bp.gap c f q := lt_min (div_pos hω hq) one_pos
  have hg1 : Lib.Bp.gap c f q ≤ 1 := min_le_right _ _
  have hr0 : 0 ≤ Lib.Bp.radius c f q := by unfold Lib.Bp.radius; linarith
  have hr1 : Lib.Bp.radius c f q < 1 := by unfold Lib.Bp.radius; linarith
  rw [BiquadCheck.stable_triangle]
  have goal : |Lib.Bp.fb1 c f q| < 1 + Lib.Bp.fb2 c f q ∧ Lib.Bp.fb2 c f q < 1 := by
    unfold Lib.Bp.fb1 Lib.Bp.fb2 powEval
    generalize Lib.Bp.radius c f q = r at *
    generalize fnEval c "cos" (Lib.Bp.omega c f) = k at *
    rw [abs_neg, abs_mul, abs_mul, abs_of_nonneg hr0, abs_two]
    split
    · next h =>
      obtain ⟨p1, p2⟩ := abs_lt.1 (hpow h)
      constructor <;> nlinarith
    · next h =>
      have : r = 0 := le_antisymm (not_lt.1 h) hr0
      subst this
      simp
  exact_mod_cast goal

/-- **C75** `[bp~]` with a steady frequency above 0: bounded inputs have bounded outputs, in proportion -/
theorem bp_bounded (hc : 0 < c.sr) {f q : ℚ} (hf : 0 < f) (hcos : |fnEval c "cos" (Lib.Bp.omega c f)| ≤ 1)
    (hpow : 0 < Lib.Bp.radius c f q → |c.powf (Lib.Bp.radius c f q) 2 - Lib.Bp.radius c f q ^ 2| < (1 - Lib.Bp.radius c f q) ^ 2) :
    ∃ K : ℝ, ∀ (x y : ℕ → ℝ) (B : ℝ), IsTwoPole x (fun _ => ((Lib.Bp.ff0 c f q : ℚ) : ℝ)) (fun _ => ((Lib.Bp.fb1 c f q : ℚ) : ℝ))
      (fun _ => ((Lib.Bp.fb2 c f q : ℚ) : ℝ)) y → (∀ t, |x t| ≤ B) → ∀ t, |y t| ≤ K * B := by
  obtain ⟨K, hK⟩ := biquad_bounded ((Lib.Bp.ff0 c f q : ℚ) : ℝ) 0 0 (bp_stable hc hf hcos hpow)
  refine ⟨K, fun x y B h hx => hK x y B (fun t => ?_) hx⟩
  rw [h t]; ring

/-- **C75** (finding) for frequencies below 0 the answer to an impulse grows beyond every bound.  (Pd takes 10 Hz instead.) -/
theorem bp_negative (hc : 0 < c.sr) {f q : ℚ} (hf : f < 0) (hpow : 1 < c.powf (Lib.Bp.radius c f q) 2) {y : ℕ → ℝ}
    (h : IsTwoPole (fun t => if t = 0 then 1 else 0) (fun _ => ((Lib.Bp.ff0 c f q : ℚ) : ℝ)) (fun _ => ((Lib.Bp.fb1 c f q : ℚ) : ℝ))
      (fun _ => ((Lib.Bp.fb2 c f q : ℚ) : ℝ)) y) (B : ℝ) : ∃ t, B < |y t| := by
  have hω : Lib.Bp.omega c f < 0 := by unfold Lib.Bp.omega; exact div_neg_of_neg_of_pos (by linarith) hc
  have hq : 0 < max q 0.001 := lt_of_lt_of_le (by norm_num) (le_max_right _ _)
  have hg : Lib.Bp.gap c f q < 0 := lt_of_le_of_lt (min_le_left _ _) (div_neg_of_neg_of_pos hω hq)
  have hr : 0 < Lib.Bp.radius c f q := by unfold Lib.Bp.radius; linarith
  have hb : Lib.Bp.ff0 c f q ≠ 0 := by
    unfold Lib.Bp.ff0
    have : Lib.Bp.radius c f q * Lib.Bp.omega c f < 0 := mul_neg_of_pos_of_neg hr hω
    exact mul_ne_zero (by linarith) (by linarith)
  have ha : 1 < Lib.Bp.fb2 c f q := by unfold Lib.Bp.fb2 powEval; rwa [if_pos hr]
  refine biquad_grows (b0 := ((Lib.Bp.ff0 c f q : ℚ) : ℝ)) (a1 := ((Lib.Bp.fb1 c f q : ℚ) : ℝ)) (by exact_mod_cast hb)
    (show (1 : ℝ) < ((Lib.Bp.fb2 c f q : ℚ) : ℝ) by exact_mod_cast ha) (fun t => ?_) B
  rw [h t]; ring

/-- **C75** (finding) at the frequency 0 whatever the filter holds goes on as a straight line: it grows without end, unless the last two
samples were equal -/
theorem bp_zero {q : ℚ} (hcos : fnEval c "cos" 0 = 1) (hpow : c.powf 1 2 = 1) {x g b1 b2 y : ℕ → ℝ} {t0 : ℕ} (h : IsTwoPole x g b1 b2 y)
    (hg : ∀ t, t0 ≤ t → g t = ((Lib.Bp.ff0 c 0 q : ℚ) : ℝ)) (h1 : ∀ t, t0 ≤ t → b1 t = ((Lib.Bp.fb1 c 0 q : ℚ) : ℝ))
    (h2 : ∀ t, t0 ≤ t → b2 t = ((Lib.Bp.fb2 c 0 q : ℚ) : ℝ)) (ht : 2 ≤ t0) (n : ℕ) :
    y (t0 + n) = y (t0 - 1) + (n + 1) * (y (t0 - 1) - y (t0 - 2)) := by
  have e0 : Lib.Bp.ff0 c 0 q = 0 := by simp [Lib.Bp.ff0, Lib.Bp.gap, Lib.Bp.omega]
  have er : Lib.Bp.radius c 0 q = 1 := by simp [Lib.Bp.radius, Lib.Bp.gap, Lib.Bp.omega]
  have e1 : Lib.Bp.fb1 c 0 q = -2 := by
    rw [Lib.Bp.fb1, er, show Lib.Bp.omega c 0 = 0 by simp [Lib.Bp.omega], hcos]; norm_num
  have e2 : Lib.Bp.fb2 c 0 q = 1 := by rw [Lib.Bp.fb2, er, powEval, if_pos one_pos, hpow]
  obtain ⟨u, rfl⟩ : ∃ u, t0 = u + 2 := ⟨t0 - 2, by omega⟩
  have hr : ∀ n, y (u + 2 + n) = 2 * y (u + 1 + n) - y (u + n) := by
    intro n
    have := h (u + 2 + n)
    rw [hg _ (by omega), h1 _ (by omega), h2 _ (by omega), e0, e1, e2] at this
    rw [this]
    have d1 : D y 1 (u + 2 + n) = y (u + 1 + n) := by unfold D; rw [if_pos (by omega)]; congr 1; omega
    have d2 : D y 2 (u + 2 + n) = y (u + n) := by unfold D; rw [if_pos (by omega)]; congr 1; omega
    rw [d1, d2]; push_cast; ring
  simp only [show u + 2 - 1 = u + 1 by omega, show u + 2 - 2 = u by omega]
  have both : ∀ n : ℕ, y (u + 1 + n) = y (u + 1) + n * (y (u + 1) - y u) ∧ y (u + 2 + n) = y (u + 1) + (n + 1) * (y (u + 1) - y u) := by
    intro n
    induction n with
    | zero => refine ⟨by simp, ?_⟩; have := hr 0; simp only [Nat.add_zero] at this ⊢; rw [this]; push_cast; ring
    | succ n ih =>
      have e : u + 1 + (n + 1) = u + 2 + n := by omega
      have a := hr (n + 1)
      rw [e, show u + (n + 1) = u + 1 + n by omega] at a
      refine ⟨by rw [e, ih.2]; push_cast; ring, ?_⟩
      rw [a, ih.1, ih.2]; push_cast; ring
  exact (both n).2

/-- a world with a filter -/
noncomputable def biquadWorld (o inp : ℕ) (x : ℕ → ℝ) : World ℝ Msg where
  bin _ _ _ := 0
  un _ _ := 0
  num := firstNum
  beh p sig ms j t :=
    if p = o then (Simd.biquadRec (sig 0)
      (fun t => ((ms 1 t).filterMap firstNum).getLast?.getD 1) (fun t => ((ms 2 t).filterMap firstNum).getLast?.getD 0)
      (fun t => ((ms 3 t).filterMap firstNum).getLast?.getD 0) (fun t => ((ms 4 t).filterMap firstNum).getLast?.getD 0)
      (fun t => ((ms 5 t).filterMap firstNum).getLast?.getD 0) t).1
    else if p = inp ∧ j = 0 then x t else 0
  late _ _ := false
  block := 64

theorem biquadWorld_is (o i : ℕ) (x : ℕ → ℝ) : IsBiquadK (biquadWorld o i x) o := by
  intro sig ms
  have : (biquadWorld o i x).beh o sig ms 0 = fun t => (Simd.biquadRec (sig 0)
      (fun t => ((ms 1 t).filterMap firstNum).getLast?.getD 1) (fun t => ((ms 2 t).filterMap firstNum).getLast?.getD 0)
      (fun t => ((ms 3 t).filterMap firstNum).getLast?.getD 0) (fun t => ((ms 4 t).filterMap firstNum).getLast?.getD 0)
      (fun t => ((ms 5 t).filterMap firstNum).getLast?.getD 0) t).1 := by
    funext t; simp [biquadWorld]
  rw [this]
  exact Simd.biquadRec_is _ _ _ _ _ _

/-- every signal can be at the inlet of `[bp~]` and its code runs beside it (here without messages from outside) -/
theorem bp_example (a1 a2 : ℚ) {c : Ctx} (hc : 0 < c.sr) (tab : ℕ → List ℚ) (x : ℕ → ℝ) :
    ∃ (W : World ℝ Msg) (log : _) (v : _) (M : Mach), W.num = firstNum ∧ Named (Bp.special a1 a2) "biquad" (fun o as => as = [] ∧ IsBiquadK W o) ∧ Solves W (Bp.patch a1 a2) log v ∧
      Lib.Bp.Code a1 a2 c M ∧ BpRuns a1 a2 c M tab (fun _ => []) log ∧ v Bp.in0 0 = x := by
  obtain ⟨M, hM⟩ := Lib.Bp.code_exists a1 a2 c
  obtain ⟨s, hs⟩ := (Lib.Bp.to_code hM (Fits := TwoNums) (fun _ => Lib.Bp.inlet_of) (Lib.Bp.simulates (a1 := a1) (a2 := a2) hc tab)).goes_on.1
  let lg : List (Sent Msg) := s.log.filterMap fun e =>
    if e.2.1 = 2 then some ⟨27, 0, e.2.2⟩ else if e.2.1 = 1 then some ⟨21, 0, e.2.2⟩ else if e.2.1 = 0 then some ⟨20, 0, e.2.2⟩ else none
  obtain ⟨v, hv⟩ := Bp.signals (a1 : ℝ) a2 (biquadWorld 7 0 x) (fun _ => lg)
  refine ⟨_, _, v, M, rfl, named_cons (fun _ => ⟨rfl, biquadWorld_is _ _ _⟩) (named_nil _ _), hv, hM, fun t => ⟨s, hs, ?_, ?_, ?_⟩, ?_⟩
  iterate 3
    · unfold SentBy
      simp only [lg]
      induction s.log with
      | nil => rfl
      | cons e l ih => by_cases h0 : e.2.1 = 0 <;> by_cases h1 : e.2.1 = 1 <;> by_cases h2 : e.2.1 = 2 <;> simp_all
  · funext t
    have := hv 0 (by simp [Bp.patch, ofConns])
    simp only [Obeys, Bp.patch, ofConns, Bp.kind] at this
    rw [this 0 t]
    simp [biquadWorld]

end bp
end Verif.Sig
