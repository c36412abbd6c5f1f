import Mathlib.Analysis.Complex.Norm
import Mathlib.Analysis.SpecialFunctions.Pow.Real
/-!
The check of stability in debug builds: hvcc/generators/ir2c/static/HvSignalBiquad.c:133-161, `sBiquad_k_updateCoefficients`, over the
real numbers (without rounding).
-/
namespace Verif.BiquadCheck

/-- the two numbers compared with 1 (lines 136-158): `m_alpha` and `m_beta`; `none` if a division by 0 comes up (the quotient is 0/0,
a NaN, in floats) -/
noncomputable def moduli (a1 a2 : ℝ) : Option (ℝ × ℝ) :=
  let k := a1 * a1 - 4 * a2
  let l := √|k|
  if k < 0 then
    let rAlpha := a1 * 0.5
    let iAlpha := l * 0.5
    let mAlpha := rAlpha * rAlpha + iAlpha * iAlpha
    if mAlpha = 0 then none else
    let rBeta := a2 * rAlpha / mAlpha
    let iBeta := a2 * -iAlpha / mAlpha
    some (√mAlpha, √(rBeta * rBeta + iBeta * iBeta))
  else
    let alpha := (a1 + l) * 0.5
    if alpha = 0 then none else
    let beta := a2 / alpha
    some (|alpha|, |beta|)

/-- `hv_assert(m_alpha < 1.0f); hv_assert(m_beta < 1.0f);` (lines 160-161) pass; a comparison with a NaN is false -/
noncomputable def passes (a1 a2 : ℝ) : Prop :=
  match moduli a1 a2 with
  | some (a, b) => a < 1 ∧ b < 1
  | none => False

end Verif.BiquadCheck
