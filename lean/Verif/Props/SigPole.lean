import Verif.Props.SigFilter
import Verif.Sig.Rpole
import Verif.Sig.Rzero
import Verif.Sig.RzeroRev
import Verif.Sig.Cpole
import Verif.Sig.Czero
import Verif.Sig.CzeroRev
import Mathlib.Analysis.Complex.Norm
/-!
# C75: poles and zeros

`[rpole~]`, `[rzero~]`, `[rzero_rev~]`, `[cpole~]`, `[czero~]`, `[czero_rev~]`.
-/
namespace Verif.Sig
open Verif.Reduce
open Verif.Simd (D IsRPole IsCPole)
open Verif.Lib (Msg)

variable {W : World ℝ Msg} {log : ℕ → List (Sent Msg)} {v : ℕ → ℕ → ℕ → ℝ}

/-- the object `o` is a `__cpole~f` (C51: the generated code is one) -/
def IsPoleC (W : World ℝ Msg) (o : ℕ) : Prop :=
  ∀ sig ms, IsCPole (sig 0) (sig 1) (sig 2) (sig 3) (W.beh o sig ms 0) (W.beh o sig ms 1)

/-- two signals as a complex one -/
def cpx (a b : ℕ → ℝ) (t : ℕ) : ℂ := ⟨a t, b t⟩

theorem cpx_D (a b : ℕ → ℝ) (t : ℕ) : D (cpx a b) 1 t = ⟨D a 1 t, D b 1 t⟩ := by
  unfold D cpx; split <;> rfl

/-- **C75** `[rpole~]`: y[n] = x[n] + a[n] y[n-1] -/
theorem rpole_tilde (hp : Named Rpole.special "__rpole~f" (fun o _ => IsPole W o)) (h : Solves W Rpole.patch log v) (t : ℕ) :
    inSum v (Rpole.patch.ins Rpole.out0 0) t =
      v Rpole.in0 0 t + v Rpole.in1 0 t * D (inSum v (Rpole.patch.ins Rpole.out0 0)) 1 t := by
  have hb := pole_of (hp 3 [] (by simp [Rpole.special])) h (by simp [Rpole.patch, ofConns]) rfl (a := 1) (b := 4) (fun t => by simp [Rpole.patch, ofConns, Rpole.conns, Conn.into, inSum])
    (fun t => by simp [Rpole.patch, ofConns, Rpole.conns, Conn.into, inSum]) t
  have ho : inSum v (Rpole.patch.ins Rpole.out0 0) = v 3 0 := funext fun t => Rpole.o0 t
  rw [ho, hb, Rpole.n4 h]
  ring

/-- **C75** `[rzero~]`: y[n] = x[n] - a[n] x[n-1] -/
theorem rzero_tilde (hd : Named Rzero.special "__del1~f" (fun o _ => IsDelay W o)) (h : Solves W Rzero.patch log v) (t : ℕ) :
    inSum v (Rzero.patch.ins Rzero.out0 0) t = v Rzero.in0 0 t - v Rzero.in1 0 t * D (v Rzero.in0 0) 1 t := by
  rw [Rzero.o0, Rzero.n5 h, Rzero.n4 h, delay_of (hd 3 [] (by simp [Rzero.special])) h (by simp [Rzero.patch, ofConns]) rfl (a := 1) (fun t => by simp [Rzero.patch, ofConns, Rzero.conns, Conn.into, inSum])]
  ring

/-- **C75** `[rzero_rev~]`: y[n] = x[n-1] - a[n] x[n] -/
theorem rzero_rev_tilde (hd : Named RzeroRev.special "__del1~f" (fun o _ => IsDelay W o)) (h : Solves W RzeroRev.patch log v) (t : ℕ) :
    inSum v (RzeroRev.patch.ins RzeroRev.out0 0) t = D (v RzeroRev.in0 0) 1 t - v RzeroRev.in1 0 t * v RzeroRev.in0 0 t := by
  rw [RzeroRev.o0, RzeroRev.n5 h, RzeroRev.n4 h, delay_of (hd 3 [] (by simp [RzeroRev.special])) h (by simp [RzeroRev.patch, ofConns]) rfl (a := 1) (fun t => by simp [RzeroRev.patch, ofConns, RzeroRev.conns, Conn.into, inSum])]
  ring

/-- **C75** `[cpole~]`: y[n] = x[n] + a[n] y[n-1], of complex numbers -/
theorem cpole_tilde (hp : Named Cpole.special "__cpole~f" (fun o _ => IsPoleC W o)) (h : Solves W Cpole.patch log v) (t : ℕ) :
    let y := cpx (inSum v (Cpole.patch.ins Cpole.out0 0)) (inSum v (Cpole.patch.ins Cpole.out1 0))
    y t = cpx (v Cpole.in0 0) (v Cpole.in1 0) t + cpx (v Cpole.in2 0) (v Cpole.in3 0) t * D y 1 t := by
  have hp := hp 6 [] (by simp [Cpole.special])
  have hb := h 6 (by simp [Cpole.patch, ofConns])
  have hk : Cpole.patch.kind 6 = .other "__cpole~f" := rfl
  simp only [Obeys, hk] at hb
  have e := hp (fun i t => inSum v (Cpole.patch.ins 6 i) t) (fun i t => received (log t) (Cpole.patch.ins 6 i))
  have e0 : W.beh 6 (fun i t => inSum v (Cpole.patch.ins 6 i) t) (fun i t => received (log t) (Cpole.patch.ins 6 i)) 0 = v 6 0 := funext fun t => (hb 0 t).symm
  have e1 : W.beh 6 (fun i t => inSum v (Cpole.patch.ins 6 i) t) (fun i t => received (log t) (Cpole.patch.ins 6 i)) 1 = v 6 1 := funext fun t => (hb 1 t).symm
  rw [e0, e1] at e
  have i0 : inSum v (Cpole.patch.ins 6 0) t = v 1 0 t := by simp [Cpole.patch, ofConns, Cpole.conns, Conn.into, inSum]
  have i1 : inSum v (Cpole.patch.ins 6 1) t = v 0 0 t := by simp [Cpole.patch, ofConns, Cpole.conns, Conn.into, inSum]
  have i2 : inSum v (Cpole.patch.ins 6 2) t = v 3 0 t := by simp [Cpole.patch, ofConns, Cpole.conns, Conn.into, inSum]
  have i3 : inSum v (Cpole.patch.ins 6 3) t = v 8 0 t := by simp [Cpole.patch, ofConns, Cpole.conns, Conn.into, inSum]
  have h1 : v 6 0 t = inSum v (Cpole.patch.ins 6 0) t - (inSum v (Cpole.patch.ins 6 2) t * D (v 6 0) 1 t - inSum v (Cpole.patch.ins 6 3) t * D (v 6 1) 1 t) ∧
      v 6 1 t = inSum v (Cpole.patch.ins 6 1) t - (inSum v (Cpole.patch.ins 6 2) t * D (v 6 1) 1 t + inSum v (Cpole.patch.ins 6 3) t * D (v 6 0) 1 t) := e t
  rw [i0, i1, i2, i3, Cpole.n3 h, Cpole.n8 h] at h1
  have o0 : inSum v (Cpole.patch.ins Cpole.out0 0) = v 6 0 := funext fun t => Cpole.o0 t
  have o1 : inSum v (Cpole.patch.ins Cpole.out1 0) = v 6 1 := funext fun t => Cpole.o1 t
  intro y
  have hy : y = cpx (v 6 0) (v 6 1) := by rw [← o0, ← o1]
  rw [hy, cpx_D]
  apply Complex.ext
  · simp only [cpx, Complex.add_re, Complex.mul_re]
    rw [h1.1]; ring
  · simp only [cpx, Complex.add_im, Complex.mul_im]
    rw [h1.2]; ring

/-- **C75** `[czero~]`: y[n] = x[n] - a[n] x[n-1], of complex numbers -/
theorem czero_tilde (hd : Named Czero.special "__del1~f" (fun o _ => IsDelay W o)) (h : Solves W Czero.patch log v) (t : ℕ) :
    let x := cpx (v Czero.in0 0) (v Czero.in1 0)
    cpx (inSum v (Czero.patch.ins Czero.out0 0)) (inSum v (Czero.patch.ins Czero.out1 0)) t =
      x t - cpx (v Czero.in2 0) (v Czero.in3 0) t * D x 1 t := by
  have e9 := delay_of (hd 9 [] (by simp [Czero.special])) h (by simp [Czero.patch, ofConns]) rfl (a := 5) (fun t => by simp [Czero.patch, ofConns, Czero.conns, Conn.into, inSum]) t
  have e10 := delay_of (hd 10 [] (by simp [Czero.special])) h (by simp [Czero.patch, ofConns]) rfl (a := 6) (fun t => by simp [Czero.patch, ofConns, Czero.conns, Conn.into, inSum]) t
  intro x
  have hx : x = cpx (v 5 0) (v 6 0) := rfl
  rw [hx, cpx_D]
  apply Complex.ext
  · simp only [cpx, Complex.sub_re, Complex.mul_re]
    rw [Czero.o0, Czero.n2 h, Czero.n11 h, Czero.n3 h, Czero.n4 h, e9, e10]; ring
  · simp only [cpx, Complex.sub_im, Complex.mul_im]
    rw [Czero.o1, Czero.n15 h, Czero.n14 h, Czero.n12 h, Czero.n13 h, e9, e10]; ring

/-- **C75** `[czero_rev~]`: y[n] = x[n-1] - a[n] x[n], of complex numbers (in Pd the conjugate of `a` is taken: F100) -/
theorem czero_rev_tilde (hd : Named CzeroRev.special "__del1~f" (fun o _ => IsDelay W o)) (h : Solves W CzeroRev.patch log v) (t : ℕ) :
    let x := cpx (v CzeroRev.in0 0) (v CzeroRev.in1 0)
    cpx (inSum v (CzeroRev.patch.ins CzeroRev.out0 0)) (inSum v (CzeroRev.patch.ins CzeroRev.out1 0)) t =
      D x 1 t - cpx (v CzeroRev.in2 0) (v CzeroRev.in3 0) t * x t := by
  have e9 := delay_of (hd 6 [] (by simp [CzeroRev.special])) h (by simp [CzeroRev.patch, ofConns]) rfl (a := 2) (fun t => by simp [CzeroRev.patch, ofConns, CzeroRev.conns, Conn.into, inSum]) t
  have e10 := delay_of (hd 7 [] (by simp [CzeroRev.special])) h (by simp [CzeroRev.patch, ofConns]) rfl (a := 3) (fun t => by simp [CzeroRev.patch, ofConns, CzeroRev.conns, Conn.into, inSum]) t
  intro x
  have hx : x = cpx (v 2 0) (v 3 0) := rfl
  rw [hx, cpx_D]
  apply Complex.ext
  · simp only [cpx, Complex.sub_re, Complex.mul_re]
    rw [CzeroRev.o0, CzeroRev.n11 h, CzeroRev.n9 h, CzeroRev.n10 h, CzeroRev.n8 h, e9]; ring
  · simp only [cpx, Complex.sub_im, Complex.mul_im]
    rw [CzeroRev.o1, CzeroRev.n14 h, CzeroRev.n15 h, CzeroRev.n12 h, CzeroRev.n13 h, e10]; ring

/-- **C75** a pole inside the unit circle is stable: if the coefficient is never larger than r < 1 and the input than B, the output is never
larger than B / (1 - r), however the coefficient changes -/
theorem pole_bounded {x a y : ℕ → ℂ} (h : ∀ t, y t = x t + a t * D y 1 t) {r B : ℝ} (hr : r < 1) (ha : ∀ t, ‖a t‖ ≤ r) (hx : ∀ t, ‖x t‖ ≤ B) (t : ℕ) :
    ‖y t‖ ≤ B / (1 - r) := by
  have hB : 0 ≤ B := (norm_nonneg _).trans (hx 0)
  have hr0 : 0 ≤ r := (norm_nonneg _).trans (ha 0)
  have h1 : 0 < 1 - r := by linarith
  have step : ∀ t, ‖D y 1 t‖ ≤ B / (1 - r) → ‖y t‖ ≤ B / (1 - r) := by
    intro t hd
    rw [h t]
    refine (norm_add_le _ _).trans ?_
    rw [norm_mul]
    have : ‖a t‖ * ‖D y 1 t‖ ≤ r * (B / (1 - r)) := mul_le_mul (ha t) hd (norm_nonneg _) hr0
    have e : B + r * (B / (1 - r)) = B / (1 - r) := by field_simp; ring
    linarith [hx t]
  induction t with
  | zero => exact step 0 (by simp [D]; positivity)
  | succ t ih => exact step (t + 1) (by simpa [D] using ih)

end Verif.Sig
