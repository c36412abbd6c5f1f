import Verif.Props.LibSmall
import Verif.Lib.Mtof
import Verif.Lib.Ftom
import Verif.Lib.Dbtorms
import Verif.Lib.Rmstodb
import Verif.Lib.Dbtopow
import Verif.Lib.Powtodb
import Verif.Lib.Wrap
import Verif.Lib.Clip
import Verif.Lib.Div
import Verif.Lib.Exp
import Verif.Lib.Sqrt
import Verif.Lib.Tgl
import Verif.Props.SigFun
/-!
# C79: the mathematical message objects

`[mtof]`, `[ftom]`, `[dbtorms]`, `[rmstodb]`, `[dbtopow]`, `[powtodb]`, `[wrap]`, `[clip]`, `[div]`, `[exp]`, `[sqrt]`, `[tgl]`: the
generated code of the library patches, for every history.  The functions of the C library (`powf`, `logf`, `expf`, `sqrtf`) are
parameters; the theorems compare with the real functions, given how near the C functions are.
-/
namespace Verif.Lib
open Verif.Control (Dest Kind Cast Patch Act Sys Env Big)

/-! ### specification -/

/-- an object that answers every number with a number, at once, and nothing else -/
def func (f : ℚ → ℚ) : Reacts Unit where
  init := ()
  on _ _ _ m :=
    match m with
    | .float q :: _ => ((), [(0, num1 (f q))])
    | _ => ((), [])

/-- single numbers, bangs and names -/
def Single : Ev → Prop
  | .ext _ i m => i = 0 ∧ ∃ a, m = [a]
  | .tick => True

/-- any non-empty message at the only inlet -/
def Only : Ev → Prop
  | .ext _ i m => i = 0 ∧ m ≠ []
  | .tick => True

/-- the functions of the C library are within the relative error `ε` of the real ones -/
structure Accurate (c : Ctx) (ε : ℝ) : Prop where
  nonneg : 0 ≤ ε
  pow : ∀ f k : ℚ, 0 < f → |(c.powf f k : ℝ) - (f : ℝ) ^ (k : ℝ)| ≤ ε * (f : ℝ) ^ (k : ℝ)
  log : ∀ f : ℚ, 0 < f → |(c.fn "log" f : ℝ) - Real.log f| ≤ ε * |Real.log f|
  exp : ∀ f : ℚ, |(c.fn "exp" f : ℝ) - Real.exp f| ≤ ε * Real.exp f
  sqrt : ∀ f : ℚ, 0 < f → |(c.fn "sqrt" f : ℝ) - √f| ≤ ε * √f

/-- there are such libraries -/
theorem accurate_exists (sr : ℚ) (tabId : String → Option Nat) {ε : ℝ} (hε : 0 < ε) : ∃ c : Ctx, c.sr = sr ∧ c.tabId = tabId ∧ Accurate c ε := by
  have rnd : ∀ x : ℝ, ∃ q : ℚ, |(q : ℝ) - x| ≤ ε * |x| := by
    intro x
    rcases eq_or_ne x 0 with rfl | hx
    · exact ⟨0, by simp⟩
    · have hd : 0 < ε * |x| := mul_pos hε (abs_pos.2 hx)
      obtain ⟨q, h1, h2⟩ := exists_rat_btwn (show x - ε * |x| < x + ε * |x| by linarith)
      exact ⟨q, abs_le.2 ⟨by linarith, by linarith⟩⟩
  choose r hr using rnd
  refine ⟨⟨sr, tabId, fun n f => if n = "log" then r (Real.log f) else if n = "exp" then r (Real.exp f) else r (√f),
    fun f k => r ((f : ℝ) ^ (k : ℝ)), 1⟩, rfl, rfl, hε.le, ?_, ?_, ?_, ?_⟩
  · intro f k hf
    have := hr ((f : ℝ) ^ (k : ℝ))
    rwa [abs_of_pos (a := (f : ℝ) ^ (k : ℝ)) (Real.rpow_pos_of_pos (by exact_mod_cast hf) _)] at this
  · intro f _; exact hr _
  · intro f
    have := hr (Real.exp f)
    rwa [abs_of_pos (a := Real.exp f) (Real.exp_pos _)] at this
  · intro f _
    have := hr (√f)
    rwa [abs_of_nonneg (a := √f) (Real.sqrt_nonneg _)] at this

/-- logarithms to a base by a constant factor -/
theorem near_log {κ l b ε L : ℝ} (hb : 0 < b) (hk : |κ * b - 1| ≤ 1 / 10 ^ 9) (h0 : 0 ≤ ε) (h : |l - L| ≤ ε * |L|) :
    |κ * l - L / b| ≤ (2 * ε + 1 / 10 ^ 9) * |L / b| := by
  have hkb : |κ * b| ≤ 2 := by
    have := abs_sub_abs_le_abs_sub (κ * b) 1
    rw [abs_one] at this
    have : (1 : ℝ) / 10 ^ 9 ≤ 1 := by norm_num
    linarith
  have e : κ * l - L / b = (κ * b * (l - L) + (κ * b - 1) * L) / b := by field_simp; ring
  rw [e, abs_div, abs_div, ← mul_div_assoc]
  gcongr
  calc |κ * b * (l - L) + (κ * b - 1) * L| ≤ |κ * b * (l - L)| + |(κ * b - 1) * L| := abs_add_le _ _
    _ = |κ * b| * |l - L| + |κ * b - 1| * |L| := by rw [abs_mul, abs_mul (κ * b - 1)]
    _ ≤ 2 * (ε * |L|) + 1 / 10 ^ 9 * |L| := by gcongr
    _ = _ := by ring

theorem kappa2 : |(1.442695040888963 : ℝ) * Real.log 2 - 1| ≤ 1 / 10 ^ 9 := by
  have h1 := Sig.log2_lo
  have h2 := Sig.log2_hi
  rw [abs_le]
  constructor <;> linarith

theorem kappa10 : |(0.434294481903252 : ℝ) * Real.log 10 - 1| ≤ 1 / 10 ^ 9 := by
  have h1 := Sig.log10_lo
  have h2 := Sig.log10_hi
  rw [abs_le]
  constructor <;> linarith

namespace Mtof

theorem Fits.inlet {e : Ev} (h : Single e) : Inlet e := by
  match e, h with
  | .ext _ _ _, h => simp only [Single] at h; simp only [Inlet]; omega
  | .tick, _ => trivial

variable {c : Ctx} {s s' : St}

theorem run {f : ℚ} : Ends (sys c) [((0, 0), num1 f)] s s' ↔
    s' = { s.set 6 [.float ((f - 69) / 12)] with log := s.log ++ [(s.now, 0, num1 (powEval c 2 ((f - 69) / 12) * 440))] } := by
  simp [lib_step, lib_mtof, Op.eval, num, Elem.fill]

/-- **C79** the generated code of `[mtof]` -/
theorem mtof_does (M : Mach) (hM : Code c M) (tab : Nat → List ℚ) :
    Does M drv (start c nodes tab) Single (func fun m => powEval c 2 ((m - 69) / 12) * 440) := by
  refine does_of_simulates (to_code hM (fun _ => Fits.inlet) (simulates_of_reacts (R := fun _ _ => True) ?_ ?_))
    fun x s h => ⟨h.1.q, h.1.log⟩
  · have hb : Ends (sys c) [] (start c nodes tab) _ := ends_nil.mpr rfl
    exact ⟨_, hb, trivial, rfl, rfl⟩
  · intro g s t i m hr hq hf
    obtain ⟨rfl, a, rfl⟩ := hf
    match a with
    | .float f =>
      refine ⟨_, run.mpr rfl, trivial, ?_⟩
      simp [func, hq, lib_step]
    | .bang => exact ⟨{ s with now := t }, (by simp [lib_step, lib_mtof, step, binStep, binkStep, fnStep, castTo, castNode, cast] : Ends (sys c) [((0, 0), [.bang])] _ _), trivial, hq, by simp [func]⟩
    | .sym x => exact ⟨{ s with now := t }, (by simp [lib_step, lib_mtof, step, binStep, binkStep, fnStep, castTo, castNode, cast] : Ends (sys c) [((0, 0), [.sym x])] _ _), trivial, hq, by simp [func]⟩

/-- **C79** and that is 440 Hz for the note 69, doubled every 12 notes, up to the error of `powf` -/
theorem mtof_near {ε : ℝ} (hc : Accurate c ε) (m : ℚ) :
    |((powEval c 2 ((m - 69) / 12) * 440 : ℚ) : ℝ) - 440 * (2 : ℝ) ^ (((m : ℝ) - 69) / 12)| ≤ ε * (440 * (2 : ℝ) ^ (((m : ℝ) - 69) / 12)) := by
  have h := hc.pow 2 ((m - 69) / 12) (by norm_num)
  rw [powEval, if_pos (by norm_num)]
  push_cast at h ⊢
  rw [show (c.powf 2 ((m - 69) / 12) : ℝ) * 440 - 440 * (2 : ℝ) ^ (((m : ℝ) - 69) / 12) =
    440 * ((c.powf 2 ((m - 69) / 12) : ℝ) - (2 : ℝ) ^ (((m : ℝ) - 69) / 12)) by ring, abs_mul, abs_of_pos (by norm_num : (0 : ℝ) < 440)]
  linarith

end Mtof

namespace Ftom

theorem Fits.inlet {e : Ev} (h : Only e) : Inlet e := by
  match e, h with
  | .ext _ _ _, h => simp only [Only] at h; simp only [Inlet]; omega
  | .tick, _ => trivial

variable {c : Ctx} {s s' : St}

theorem run {f : ℚ} {m : Msg} : Ends (sys c) [((0, 0), .float f :: m)] s s' ↔
    s' = if 0 < f then { s.set 9 [.float 1] with log := s.log ++ [(s.now, 0, num1 (fnEval c "log2" (f / 440) * 12 + 69))] }
      else { s.set 9 [.float 0] with log := s.log ++ [(s.now, 0, num1 (-1500))] } := by
  by_cases h : 0 < f <;> simp [lib_step, lib_ftom, Op.eval, tf, num, Elem.fill, cast, h]

/-- **C79** the generated code of `[ftom]`, for all messages -/
theorem ftom_does (M : Mach) (hM : Code c M) (tab : Nat → List ℚ) :
    Does M drv (start c nodes tab) Only (func fun f => if 0 < f then fnEval c "log2" (f / 440) * 12 + 69 else -1500) := by
  refine does_of_simulates (to_code hM (fun _ => Fits.inlet) (simulates_of_reacts (R := fun _ _ => True) ?_ ?_))
    fun x s h => ⟨h.1.q, h.1.log⟩
  · have hb : Ends (sys c) [] (start c nodes tab) _ := ends_nil.mpr rfl
    exact ⟨_, hb, trivial, rfl, rfl⟩
  · intro g s t i m hr hq hf
    obtain ⟨rfl, hm⟩ := hf
    match m, hm with
    | .float f :: m, _ =>
      refine ⟨_, run.mpr rfl, trivial, ?_⟩
      by_cases h : 0 < f <;> simp [func, hq, h, lib_step]
    | .bang :: m, _ => exact ⟨{ s with now := t }, (by simp [lib_step, lib_ftom, step, binStep, binkStep, fnStep, castTo, castNode, cast] : Ends (sys c) [((0, 0), .bang :: m)] _ _), trivial, hq, by simp [func]⟩
    | .sym x :: m, _ => exact ⟨{ s with now := t }, (by simp [lib_step, lib_ftom, step, binStep, binkStep, fnStep, castTo, castNode, cast] : Ends (sys c) [((0, 0), .sym x :: m)] _ _), trivial, hq, by simp [func]⟩

/-- **C79** and that is the inverse of [mtof], 69 + 12 log2(f / 440), up to the error of `logf` and one in a billion, and -1500 for 0 and
below -/
theorem ftom_near {ε : ℝ} (hc : Accurate c ε) (f : ℚ) (hf : 0 < f) :
    |((if 0 < f then fnEval c "log2" (f / 440) * 12 + 69 else -1500 : ℚ) : ℝ) - (69 + 12 * Real.logb 2 (f / 440))| ≤
      12 * ((2 * ε + 1 / 10 ^ 9) * |Real.logb 2 (f / 440)|) := by
  have hf' : 0 < f / 440 := by positivity
  have h := near_log (b := Real.log 2) (Real.log_pos (by norm_num)) kappa2 hc.nonneg (hc.log (f / 440) hf')
  rw [if_pos hf]
  simp only [fnEval, String.reduceEq, if_false, if_true, hf', gt_iff_lt]
  push_cast at h ⊢
  rw [Real.logb]
  rw [show (1.442695040888963 : ℝ) * (c.fn "log" (f / 440) : ℝ) * 12 + 69 - (69 + 12 * (Real.log (f / 440) / Real.log 2)) =
    12 * (1.442695040888963 * (c.fn "log" (f / 440) : ℝ) - Real.log (f / 440) / Real.log 2) by ring, abs_mul, abs_of_pos (by norm_num : (0 : ℝ) < 12)]
  gcongr

end Ftom

namespace Dbtorms

theorem Fits.inlet {e : Ev} (h : Only e) : Inlet e := by
  match e, h with
  | .ext _ _ _, h => simp only [Only] at h; simp only [Inlet]; omega
  | .tick, _ => trivial

variable {c : Ctx} {s s' : St}

theorem run {f : ℚ} {m : Msg} : Ends (sys c) [((0, 0), .float f :: m)] s s' ↔
    s' = if 0 < f then { (s.set 10 [.float 1]).set 2 [.float ((min f 485 - 100) / 20)] with log := s.log ++ [(s.now, 0, num1 (powEval c 10 ((min f 485 - 100) / 20)))] }
      else { s.set 10 [.float 0] with log := s.log ++ [(s.now, 0, num1 (0))] } := by
  by_cases h : 0 < f <;> simp [lib_step, lib_dbtorms, Op.eval, tf, num, Elem.fill, cast, h]

/-- **C79** the generated code of `[dbtorms]`, for all messages -/
theorem dbtorms_does (M : Mach) (hM : Code c M) (tab : Nat → List ℚ) :
    Does M drv (start c nodes tab) Only (func fun f => if 0 < f then powEval c 10 ((min f 485 - 100) / 20) else 0) := by
  refine does_of_simulates (to_code hM (fun _ => Fits.inlet) (simulates_of_reacts (R := fun _ _ => True) ?_ ?_))
    fun x s h => ⟨h.1.q, h.1.log⟩
  · have hb : Ends (sys c) [] (start c nodes tab) _ := ends_nil.mpr rfl
    exact ⟨_, hb, trivial, rfl, rfl⟩
  · intro g s t i m hr hq hf
    obtain ⟨rfl, hm⟩ := hf
    match m, hm with
    | .float f :: m, _ =>
      refine ⟨_, run.mpr rfl, trivial, ?_⟩
      by_cases h : 0 < f <;> simp [func, hq, h, lib_step]
    | .bang :: m, _ => exact ⟨{ s with now := t }, (by simp [lib_step, lib_dbtorms, step, binStep, binkStep, fnStep, castTo, castNode, cast] : Ends (sys c) [((0, 0), .bang :: m)] _ _), trivial, hq, by simp [func]⟩
    | .sym x :: m, _ => exact ⟨{ s with now := t }, (by simp [lib_step, lib_dbtorms, step, binStep, binkStep, fnStep, castTo, castNode, cast] : Ends (sys c) [((0, 0), .sym x :: m)] _ _), trivial, hq, by simp [func]⟩

/-- **C79** and that is 10^((f - 100)/20) of f up to 485, up to the error of `powf`; 0 for 0 and below -/
theorem dbtorms_near {ε : ℝ} (hc : Accurate c ε) (f : ℚ) (hf : 0 < f) :
    |((if 0 < f then powEval c 10 ((min f 485 - 100) / 20) else 0 : ℚ) : ℝ) - (10 : ℝ) ^ ((min (f : ℝ) 485 - 100) / 20)| ≤
      ε * (10 : ℝ) ^ ((min (f : ℝ) 485 - 100) / 20) := by
  have h := hc.pow 10 ((min f 485 - 100) / 20) (by norm_num)
  rw [if_pos hf, powEval, if_pos (by norm_num)]
  push_cast at h ⊢
  exact h

end Dbtorms

namespace Dbtopow

theorem Fits.inlet {e : Ev} (h : Only e) : Inlet e := by
  match e, h with
  | .ext _ _ _, h => simp only [Only] at h; simp only [Inlet]; omega
  | .tick, _ => trivial

variable {c : Ctx} {s s' : St}

theorem run {f : ℚ} {m : Msg} : Ends (sys c) [((0, 0), .float f :: m)] s s' ↔
    s' = if 0 < f then { (s.set 11 [.float 1]).set 2 [.float ((min f 870 - 100) / 10)] with log := s.log ++ [(s.now, 0, num1 (powEval c 10 ((min f 870 - 100) / 10)))] }
      else { s.set 11 [.float 0] with log := s.log ++ [(s.now, 0, num1 (0))] } := by
  by_cases h : 0 < f <;> simp [lib_step, lib_dbtopow, Op.eval, tf, num, Elem.fill, cast, h]

/-- **C79** the generated code of `[dbtopow]`, for all messages -/
theorem dbtopow_does (M : Mach) (hM : Code c M) (tab : Nat → List ℚ) :
    Does M drv (start c nodes tab) Only (func fun f => if 0 < f then powEval c 10 ((min f 870 - 100) / 10) else 0) := by
  refine does_of_simulates (to_code hM (fun _ => Fits.inlet) (simulates_of_reacts (R := fun _ _ => True) ?_ ?_))
    fun x s h => ⟨h.1.q, h.1.log⟩
  · have hb : Ends (sys c) [] (start c nodes tab) _ := ends_nil.mpr rfl
    exact ⟨_, hb, trivial, rfl, rfl⟩
  · intro g s t i m hr hq hf
    obtain ⟨rfl, hm⟩ := hf
    match m, hm with
    | .float f :: m, _ =>
      refine ⟨_, run.mpr rfl, trivial, ?_⟩
      by_cases h : 0 < f <;> simp [func, hq, h, lib_step]
    | .bang :: m, _ => exact ⟨{ s with now := t }, (by simp [lib_step, lib_dbtopow, step, binStep, binkStep, fnStep, castTo, castNode, cast] : Ends (sys c) [((0, 0), .bang :: m)] _ _), trivial, hq, by simp [func]⟩
    | .sym x :: m, _ => exact ⟨{ s with now := t }, (by simp [lib_step, lib_dbtopow, step, binStep, binkStep, fnStep, castTo, castNode, cast] : Ends (sys c) [((0, 0), .sym x :: m)] _ _), trivial, hq, by simp [func]⟩

/-- **C79** and that is 10^((f - 100)/10) of f up to 870, up to the error of `powf`; 0 for 0 and below -/
theorem dbtopow_near {ε : ℝ} (hc : Accurate c ε) (f : ℚ) (hf : 0 < f) :
    |((if 0 < f then powEval c 10 ((min f 870 - 100) / 10) else 0 : ℚ) : ℝ) - (10 : ℝ) ^ ((min (f : ℝ) 870 - 100) / 10)| ≤
      ε * (10 : ℝ) ^ ((min (f : ℝ) 870 - 100) / 10) := by
  have h := hc.pow 10 ((min f 870 - 100) / 10) (by norm_num)
  rw [if_pos hf, powEval, if_pos (by norm_num)]
  push_cast at h ⊢
  exact h

end Dbtopow

namespace Rmstodb

theorem Fits.inlet {e : Ev} (h : Only e) : Inlet e := by
  match e, h with
  | .ext _ _ _, h => simp only [Only] at h; simp only [Inlet]; omega
  | .tick, _ => trivial

variable {c : Ctx} {s s' : St}

theorem run {f : ℚ} {m : Msg} : Ends (sys c) [((0, 0), .float f :: m)] s s' ↔
    s' = if 0 < f then { s.set 9 [.float 1] with log := s.log ++ [(s.now, 0, num1 (max (fnEval c "log10" f * 20 + 100) 0))] }
      else { s.set 9 [.float 0] with log := s.log ++ [(s.now, 0, num1 (0))] } := by
  by_cases h : 0 < f <;> simp [lib_step, lib_rmstodb, Op.eval, tf, num, Elem.fill, cast, h]

/-- **C79** the generated code of `[rmstodb]`, for all messages -/
theorem rmstodb_does (M : Mach) (hM : Code c M) (tab : Nat → List ℚ) :
    Does M drv (start c nodes tab) Only (func fun f => if 0 < f then max (fnEval c "log10" f * 20 + 100) 0 else 0) := by
  refine does_of_simulates (to_code hM (fun _ => Fits.inlet) (simulates_of_reacts (R := fun _ _ => True) ?_ ?_))
    fun x s h => ⟨h.1.q, h.1.log⟩
  · have hb : Ends (sys c) [] (start c nodes tab) _ := ends_nil.mpr rfl
    exact ⟨_, hb, trivial, rfl, rfl⟩
  · intro g s t i m hr hq hf
    obtain ⟨rfl, hm⟩ := hf
    match m, hm with
    | .float f :: m, _ =>
      refine ⟨_, run.mpr rfl, trivial, ?_⟩
      by_cases h : 0 < f <;> simp [func, hq, h, lib_step]
    | .bang :: m, _ => exact ⟨{ s with now := t }, (by simp [lib_step, lib_rmstodb, step, binStep, binkStep, fnStep, castTo, castNode, cast] : Ends (sys c) [((0, 0), .bang :: m)] _ _), trivial, hq, by simp [func]⟩
    | .sym x :: m, _ => exact ⟨{ s with now := t }, (by simp [lib_step, lib_rmstodb, step, binStep, binkStep, fnStep, castTo, castNode, cast] : Ends (sys c) [((0, 0), .sym x :: m)] _ _), trivial, hq, by simp [func]⟩

/-- **C79** and that is 100 + 20 log10(f), not below 0, up to the error of `logf` and one in a billion; 0 for 0 and below -/
theorem rmstodb_near {ε : ℝ} (hc : Accurate c ε) (f : ℚ) (hf : 0 < f) :
    |((if 0 < f then max (fnEval c "log10" f * 20 + 100) 0 else 0 : ℚ) : ℝ) - max (100 + 20 * Real.logb 10 f) 0| ≤
      20 * ((2 * ε + 1 / 10 ^ 9) * |Real.logb 10 f|) := by
  have h := near_log (b := Real.log 10) (Real.log_pos (by norm_num)) kappa10 hc.nonneg (hc.log f hf)
  rw [if_pos hf]
  simp only [fnEval, String.reduceEq, if_false, if_true, hf, gt_iff_lt]
  push_cast at h ⊢
  refine (Sig.max_near _ _ _).trans ?_
  rw [Real.logb]
  rw [show (0.434294481903252 : ℝ) * (c.fn "log" f : ℝ) * 20 + 100 - (100 + 20 * (Real.log f / Real.log 10)) =
    20 * (0.434294481903252 * (c.fn "log" f : ℝ) - Real.log f / Real.log 10) by ring, abs_mul, abs_of_pos (by norm_num : (0 : ℝ) < 20)]
  gcongr

end Rmstodb

namespace Powtodb

theorem Fits.inlet {e : Ev} (h : Only e) : Inlet e := by
  match e, h with
  | .ext _ _ _, h => simp only [Only] at h; simp only [Inlet]; omega
  | .tick, _ => trivial

variable {c : Ctx} {s s' : St}

theorem run {f : ℚ} {m : Msg} : Ends (sys c) [((0, 0), .float f :: m)] s s' ↔
    s' = if 0 < f then { s.set 9 [.float 1] with log := s.log ++ [(s.now, 0, num1 (max (fnEval c "log10" f * 10 + 100) 0))] }
      else { s.set 9 [.float 0] with log := s.log ++ [(s.now, 0, num1 (0))] } := by
  by_cases h : 0 < f <;> simp [lib_step, lib_powtodb, Op.eval, tf, num, Elem.fill, cast, h]

/-- **C79** the generated code of `[powtodb]`, for all messages -/
theorem powtodb_does (M : Mach) (hM : Code c M) (tab : Nat → List ℚ) :
    Does M drv (start c nodes tab) Only (func fun f => if 0 < f then max (fnEval c "log10" f * 10 + 100) 0 else 0) := by
  refine does_of_simulates (to_code hM (fun _ => Fits.inlet) (simulates_of_reacts (R := fun _ _ => True) ?_ ?_))
    fun x s h => ⟨h.1.q, h.1.log⟩
  · have hb : Ends (sys c) [] (start c nodes tab) _ := ends_nil.mpr rfl
    exact ⟨_, hb, trivial, rfl, rfl⟩
  · intro g s t i m hr hq hf
    obtain ⟨rfl, hm⟩ := hf
    match m, hm with
    | .float f :: m, _ =>
      refine ⟨_, run.mpr rfl, trivial, ?_⟩
      by_cases h : 0 < f <;> simp [func, hq, h, lib_step]
    | .bang :: m, _ => exact ⟨{ s with now := t }, (by simp [lib_step, lib_powtodb, step, binStep, binkStep, fnStep, castTo, castNode, cast] : Ends (sys c) [((0, 0), .bang :: m)] _ _), trivial, hq, by simp [func]⟩
    | .sym x :: m, _ => exact ⟨{ s with now := t }, (by simp [lib_step, lib_powtodb, step, binStep, binkStep, fnStep, castTo, castNode, cast] : Ends (sys c) [((0, 0), .sym x :: m)] _ _), trivial, hq, by simp [func]⟩

/-- **C79** and that is 100 + 10 log10(f), not below 0, up to the error of `logf` and one in a billion; 0 for 0 and below -/
theorem powtodb_near {ε : ℝ} (hc : Accurate c ε) (f : ℚ) (hf : 0 < f) :
    |((if 0 < f then max (fnEval c "log10" f * 10 + 100) 0 else 0 : ℚ) : ℝ) - max (100 + 10 * Real.logb 10 f) 0| ≤
      10 * ((2 * ε + 1 / 10 ^ 9) * |Real.logb 10 f|) := by
  have h := near_log (b := Real.log 10) (Real.log_pos (by norm_num)) kappa10 hc.nonneg (hc.log f hf)
  rw [if_pos hf]
  simp only [fnEval, String.reduceEq, if_false, if_true, hf, gt_iff_lt]
  push_cast at h ⊢
  refine (Sig.max_near _ _ _).trans ?_
  rw [Real.logb]
  rw [show (0.434294481903252 : ℝ) * (c.fn "log" f : ℝ) * 10 + 100 - (100 + 10 * (Real.log f / Real.log 10)) =
    10 * (0.434294481903252 * (c.fn "log" f : ℝ) - Real.log f / Real.log 10) by ring, abs_mul, abs_of_pos (by norm_num : (0 : ℝ) < 10)]
  gcongr

end Powtodb

namespace Wrap

theorem Fits.inlet {e : Ev} (h : Only e) : Inlet e := by
  match e, h with
  | .ext _ _ _, h => simp only [Only] at h; simp only [Inlet]; omega
  | .tick, _ => trivial

variable {c : Ctx} {s s' : St}

theorem run {f : ℚ} {m : Msg} : Ends (sys c) [((0, 0), .float f :: m)] s s' ↔
    s' = { s.set 2 [.float (⌊f⌋ : ℚ)] with log := s.log ++ [(s.now, 0, num1 (Int.fract f))] } := by
  simp [lib_step, lib_wrap, Op.eval, num, cast]

/-- **C79** the generated code of `[wrap]`, for all messages: the fractional part, in [0, 1) also for negative numbers -/
theorem wrap_does (M : Mach) (hM : Code c M) (tab : Nat → List ℚ) : Does M drv (start c nodes tab) Only (func Int.fract) := by
  refine does_of_simulates (to_code hM (fun _ => Fits.inlet) (simulates_of_reacts (R := fun _ _ => True) ?_ ?_))
    fun x s h => ⟨h.1.q, h.1.log⟩
  · have hb : Ends (sys c) [] (start c nodes tab) _ := ends_nil.mpr rfl
    exact ⟨_, hb, trivial, rfl, rfl⟩
  · intro g s t i m hr hq hf
    obtain ⟨rfl, hm⟩ := hf
    match m, hm with
    | .float f :: m, _ =>
      refine ⟨_, run.mpr rfl, trivial, ?_⟩
      simp [func, hq, lib_step]
    | .bang :: m, _ => exact ⟨{ s with now := t }, (by simp [lib_step, lib_wrap, step, binStep, binkStep, fnStep, castTo, castNode, cast] : Ends (sys c) [((0, 0), .bang :: m)] _ _), trivial, hq, by simp [func]⟩
    | .sym x :: m, _ => exact ⟨{ s with now := t }, (by simp [lib_step, lib_wrap, step, binStep, binkStep, fnStep, castTo, castNode, cast] : Ends (sys c) [((0, 0), .sym x :: m)] _ _), trivial, hq, by simp [func]⟩

end Wrap

/-! ### one function of the C library -/

namespace Exp

theorem Fits.inlet {e : Ev} (h : Single e) : Inlet e := by
  match e, h with
  | .ext _ _ _, h => simp only [Single] at h; simp only [Inlet]; omega
  | .tick, _ => trivial

variable {c : Ctx} {s s' : St}

/-- **C79** the generated code of `[exp]` -/
theorem exp_does (M : Mach) (hM : Code c M) (tab : Nat → List ℚ) :
    Does M drv (start c nodes tab) Single (func fun f => c.fn "exp" (min f 87.3365)) := by
  refine does_of_simulates (to_code hM (fun _ => Fits.inlet) (simulates_of_reacts (R := fun _ _ => True) ?_ ?_))
    fun x s h => ⟨h.1.q, h.1.log⟩
  · have hb : Ends (sys c) [] (start c nodes tab) _ := ends_nil.mpr rfl
    exact ⟨_, hb, trivial, rfl, rfl⟩
  · intro g s t i m hr hq hf
    obtain ⟨rfl, a, rfl⟩ := hf
    match a with
    | .float f =>
      refine ⟨_, (by simp [lib_step, lib_exp, Op.eval, fnEval]; rfl : Ends (sys c) [((0, 0), [.float f])] _ _), trivial, ?_⟩
      simp [func, hq, lib_step]
    | .bang => exact ⟨{ s with now := t }, (by simp [lib_step, lib_exp, step, binStep, binkStep, fnStep, castTo, castNode, cast] : Ends (sys c) [((0, 0), [.bang])] _ _), trivial, hq, by simp [func]⟩
    | .sym x => exact ⟨{ s with now := t }, (by simp [lib_step, lib_exp, step, binStep, binkStep, fnStep, castTo, castNode, cast] : Ends (sys c) [((0, 0), [.sym x])] _ _), trivial, hq, by simp [func]⟩

/-- **C79** exact up to 87.3365, and constant from there on -/
theorem exp_near {ε : ℝ} (hc : Accurate c ε) (f : ℚ) :
    |(c.fn "exp" (min f 87.3365) : ℝ) - Real.exp (min (f : ℝ) 87.3365)| ≤ ε * Real.exp (min (f : ℝ) 87.3365) := by
  have h := hc.exp (min f 87.3365)
  push_cast at h
  exact h

end Exp

namespace Sqrt

theorem Fits.inlet {e : Ev} (h : Single e) : Inlet e := by
  match e, h with
  | .ext _ _ _, h => simp only [Single] at h; simp only [Inlet]; omega
  | .tick, _ => trivial

variable {c : Ctx} {s s' : St}

/-- **C79** the generated code of `[sqrt]` -/
theorem sqrt_does (M : Mach) (hM : Code c M) (tab : Nat → List ℚ) :
    Does M drv (start c nodes tab) Single (func fun f => if 0 < f then c.fn "sqrt" f else 0) := by
  refine does_of_simulates (to_code hM (fun _ => Fits.inlet) (simulates_of_reacts (R := fun _ _ => True) ?_ ?_))
    fun x s h => ⟨h.1.q, h.1.log⟩
  · have hb : Ends (sys c) [] (start c nodes tab) _ := ends_nil.mpr rfl
    exact ⟨_, hb, trivial, rfl, rfl⟩
  · intro g s t i m hr hq hf
    obtain ⟨rfl, a, rfl⟩ := hf
    match a with
    | .float f =>
      refine ⟨_, (by simp [lib_step, lib_sqrt, Op.eval, fnEval]; rfl : Ends (sys c) [((0, 0), [.float f])] _ _), trivial, ?_⟩
      simp [func, hq, lib_step]
    | .bang => exact ⟨{ s with now := t }, (by simp [lib_step, lib_sqrt, step, binStep, binkStep, fnStep, castTo, castNode, cast] : Ends (sys c) [((0, 0), [.bang])] _ _), trivial, hq, by simp [func]⟩
    | .sym x => exact ⟨{ s with now := t }, (by simp [lib_step, lib_sqrt, step, binStep, binkStep, fnStep, castTo, castNode, cast] : Ends (sys c) [((0, 0), [.sym x])] _ _), trivial, hq, by simp [func]⟩

/-- **C79** the square root, 0 of negative numbers -/
theorem sqrt_near {ε : ℝ} (hc : Accurate c ε) (f : ℚ) : |((if 0 < f then c.fn "sqrt" f else 0 : ℚ) : ℝ) - √f| ≤ ε * √f := by
  split
  · next h => exact hc.sqrt f h
  · next h =>
    have : √(f : ℝ) = 0 := Real.sqrt_eq_zero_of_nonpos (by exact_mod_cast not_lt.1 h)
    rw [this]; simp

end Sqrt

/-! ### two inlets and more -/

namespace Clip

/-- the number restricted to the bounds, which the other inlets change -/
def spec (a1 a2 : ℚ) : Reacts (ℚ × ℚ) where
  init := (a1, a2)
  on b _ i m :=
    match i, m with
    | 0, .float f :: _ => (b, [(0, num1 (max (min f b.2) b.1))])
    | 1, .float q :: _ => ((q, b.2), [])
    | 2, .float q :: _ => ((b.1, q), [])
    | _, _ => (b, [])

/-- single elements at the left inlet, anything but nothing at the others -/
def Fits : Ev → Prop
  | .ext _ 0 m => ∃ a, m = [a]
  | .ext _ i m => i < 3 ∧ m ≠ []
  | .tick => True

theorem Fits.inlet {e : Ev} (h : Fits e) : Inlet e := by
  match e, h with
  | .ext _ 0 _, _ => exact Nat.zero_lt_succ _
  | .ext _ (i + 1) _, h => simp only [Fits] at h; simp only [Inlet]; omega
  | .tick, _ => trivial

variable {a1 a2 : ℚ} {c : Ctx} {s s' : St}

/-- **C79** the generated code of `[clip a1 a2]` -/
theorem clip_does (M : Mach) (hM : Code a1 a2 c M) (tab : Nat → List ℚ) : Does M drv (start c (nodes a1 a2) tab) Fits (spec a1 a2) := by
  refine does_of_simulates (to_code hM (fun _ => Fits.inlet)
    (simulates_of_reacts (R := fun b s => num (s.mem 4) = b.1 ∧ num (s.mem 3) = b.2) ?_ ?_)) fun x s h => ⟨h.1.q, h.1.log⟩
  · have hb : Ends (sys a1 a2 c) [] (start c (nodes a1 a2) tab) _ := ends_nil.mpr rfl
    exact ⟨_, hb, ⟨rfl, rfl⟩, rfl, rfl⟩
  · intro g s t i m hr hq hf
    match i, hf with
    | 0, ⟨a, ha⟩ =>
      subst ha
      match a with
      | .float f =>
        refine ⟨?s1, (?h1 : Ends (sys a1 a2 c) [((0, 0), [.float f])] _ _), ?_⟩
        case h1 => simp [lib_step, lib_clip, Op.eval]; rfl
        refine ⟨hr, hq, ?_⟩
        simp [spec, hr]
      | .bang =>
        refine ⟨?s2, (?h2 : Ends (sys a1 a2 c) [((0, 0), [.bang])] _ _), ?_⟩
        case h2 => simp [lib_step, lib_clip, step, binStep]; rfl
        exact ⟨hr, hq, by simp [spec]⟩
      | .sym x =>
        refine ⟨?s3, (?h3 : Ends (sys a1 a2 c) [((0, 0), [.sym x])] _ _), ?_⟩
        case h3 => simp [lib_step, lib_clip, step, binStep]; rfl
        exact ⟨hr, hq, by simp [spec]⟩
    | 1, hm =>
      match m, hm.2 with
      | .float q :: m, _ =>
        refine ⟨?s4, (?h4 : Ends (sys a1 a2 c) [((0, 1), .float q :: m)] _ _), ?_⟩
        case h4 => simp [lib_step, lib_clip]; rfl
        exact ⟨⟨rfl, hr.2⟩, hq, by simp [spec, lib_step]⟩
      | .bang :: m, _ =>
        refine ⟨?s5, (?h5 : Ends (sys a1 a2 c) [((0, 1), .bang :: m)] _ _), ?_⟩
        case h5 => simp [lib_step, lib_clip, step, binStep]; rfl
        exact ⟨hr, hq, by simp [spec]⟩
      | .sym x :: m, _ =>
        refine ⟨?s6, (?h6 : Ends (sys a1 a2 c) [((0, 1), .sym x :: m)] _ _), ?_⟩
        case h6 => simp [lib_step, lib_clip, step, binStep]; rfl
        exact ⟨hr, hq, by simp [spec]⟩
    | 2, hm =>
      match m, hm.2 with
      | .float q :: m, _ =>
        refine ⟨?s7, (?h7 : Ends (sys a1 a2 c) [((0, 2), .float q :: m)] _ _), ?_⟩
        case h7 => simp [lib_step, lib_clip]; rfl
        exact ⟨⟨hr.1, rfl⟩, hq, by simp [spec, lib_step]⟩
      | .bang :: m, _ =>
        refine ⟨?s8, (?h8 : Ends (sys a1 a2 c) [((0, 2), .bang :: m)] _ _), ?_⟩
        case h8 => simp [lib_step, lib_clip, step, binStep]; rfl
        exact ⟨hr, hq, by simp [spec]⟩
      | .sym x :: m, _ =>
        refine ⟨?s9, (?h9 : Ends (sys a1 a2 c) [((0, 2), .sym x :: m)] _ _), ?_⟩
        case h9 => simp [lib_step, lib_clip, step, binStep]; rfl
        exact ⟨hr, hq, by simp [spec]⟩
    | i + 3, hm => exact absurd hm.1 (by omega)

/-- 7, then with the upper bound 10 -/
example : ((spec 0 5).after [.ext 1 0 [.float 7], .ext 1 2 [.float 10], .ext 2 0 [.float 7], .ext 3 0 [.float (-7)]]).2 =
    [(1, 0, [.float 5]), (2, 0, [.float 7]), (3, 0, [.float 0])] := by decide +kernel

end Clip

namespace Div

/-- the quotient of the integer parts, cut to an integer; 0 for a divisor whose integer part is 0 -/
def quot (f k : ℚ) : ℚ := if trunc k = 0 then 0 else (((trunc f).tdiv (trunc k) : Int) : ℚ)

def spec (a1 : ℚ) : Reacts ℚ where
  init := a1
  on k _ i m :=
    match i, m with
    | 0, .float f :: _ => (k, [(0, num1 (quot f k))])
    | 1, .float q :: _ => (q, [])
    | _, _ => (k, [])

/-- single elements at the left inlet, anything but nothing at the other -/
def Fits : Ev → Prop
  | .ext _ 0 m => ∃ a, m = [a]
  | .ext _ i m => i < 2 ∧ m ≠ []
  | .tick => True

theorem Fits.inlet {e : Ev} (h : Fits e) : Inlet e := by
  match e, h with
  | .ext _ 0 _, _ => exact Nat.zero_lt_succ _
  | .ext _ (i + 1) _, h => simp only [Fits] at h; simp only [Inlet]; omega
  | .tick, _ => trivial

variable {a1 : ℚ} {c : Ctx} {s s' : St}

/-- **C79** the generated code of `[div a1]` -/
theorem div_does (M : Mach) (hM : Code a1 c M) (tab : Nat → List ℚ) : Does M drv (start c (nodes a1) tab) Fits (spec a1) := by
  refine does_of_simulates (to_code hM (fun _ => Fits.inlet)
    (simulates_of_reacts (R := fun k s => num (s.mem 4) = k) ?_ ?_)) fun x s h => ⟨h.1.q, h.1.log⟩
  · have hb : Ends (sys a1 c) [] (start c (nodes a1) tab) _ := ends_nil.mpr rfl
    exact ⟨_, hb, rfl, rfl, rfl⟩
  · intro g s t i m hr hq hf
    match i, hf with
    | 0, ⟨a, ha⟩ =>
      subst ha
      match a with
      | .float f =>
        refine ⟨?s10, (?h10 : Ends (sys a1 c) [((0, 0), [.float f])] _ _), ?_⟩
        case h10 => simp [lib_step, lib_div, Op.eval]; rfl
        refine ⟨hr, hq, ?_⟩
        simp only [spec, hr, quot]
        simp
      | .bang =>
        refine ⟨?s11, (?h11 : Ends (sys a1 c) [((0, 0), [.bang])] _ _), ?_⟩
        case h11 => simp [lib_step, lib_div, step, binStep]; rfl
        exact ⟨hr, hq, by simp [spec]⟩
      | .sym x =>
        refine ⟨?s12, (?h12 : Ends (sys a1 c) [((0, 0), [.sym x])] _ _), ?_⟩
        case h12 => simp [lib_step, lib_div, step, binStep]; rfl
        exact ⟨hr, hq, by simp [spec]⟩
    | 1, hm =>
      match m, hm.2 with
      | .float q :: m, _ =>
        refine ⟨?s13, (?h13 : Ends (sys a1 c) [((0, 1), .float q :: m)] _ _), ?_⟩
        case h13 => simp [lib_step, lib_div]; rfl
        exact ⟨rfl, hq, by simp [spec, lib_step]⟩
      | .bang :: m, _ =>
        refine ⟨?s14, (?h14 : Ends (sys a1 c) [((0, 1), .bang :: m)] _ _), ?_⟩
        case h14 => simp [lib_step, lib_div, step, binStep]; rfl
        exact ⟨hr, hq, by simp [spec]⟩
      | .sym x :: m, _ =>
        refine ⟨?s15, (?h15 : Ends (sys a1 c) [((0, 1), .sym x :: m)] _ _), ?_⟩
        case h15 => simp [lib_step, lib_div, step, binStep]; rfl
        exact ⟨hr, hq, by simp [spec]⟩
    | i + 2, hm => exact absurd hm.1 (by omega)

/-- **C79** (finding): Pd's [div] rounds down, this one towards zero: -7 by 2 is -3, not -4 -/
theorem div_negative : quot (-7) 2 = -3 ∧ ⌊(-7 : ℚ) / 2⌋ = -4 := by
  constructor
  · decide +kernel
  · norm_num [Int.floor_eq_iff]

end Div

namespace Tgl

/-- numbers pass; a bang gives 1 if the last number was 0, otherwise 0; the first bang gives 1 -/
def spec : Reacts ℚ where
  init := 0
  on v _ _ m :=
    match m with
    | .float f :: _ => (f, [(0, .float f :: m.tail)])
    | .bang :: _ => (tf (v = 0), [(0, num1 (tf (v = 0)))])
    | _ => (v, [])

/-- numbers and bangs -/
def Fits : Ev → Prop
  | .ext _ i m => i = 0 ∧ ((∃ f, m = num1 f) ∨ m = [.bang])
  | .tick => True

theorem Fits.inlet {e : Ev} (h : Fits e) : Inlet e := by
  match e, h with
  | .ext _ _ _, h => simp only [Fits] at h; simp only [Inlet]; omega
  | .tick, _ => trivial

variable {c : Ctx} {s s' : St}

/-- **C79** the generated code of `[tgl]` -/
theorem tgl_does (M : Mach) (hM : Code c M) (tab : Nat → List ℚ) : Does M drv (start c nodes tab) Fits spec := by
  refine does_of_simulates (to_code hM (fun _ => Fits.inlet)
    (simulates_of_reacts (R := fun v s => s.mem 5 = num1 (tf (v = 0))) ?_ ?_)) fun x s h => ⟨h.1.q, h.1.log⟩
  · have hb : Ends (sys c) [] (start c nodes tab) _ := ends_nil.mpr rfl
    exact ⟨_, hb, rfl, rfl, rfl⟩
  · intro v s t i m hr hq hf
    obtain ⟨rfl, ⟨f, rfl⟩ | rfl⟩ := hf
    · refine ⟨?a1, (?b1 : Ends (sys c) [((0, 0), [.float f])] _ _), ?_⟩
      case b1 => simp [lib_step, lib_tgl, Op.eval]; rfl
      refine ⟨?_, hq, ?_⟩
      · simp [spec, lib_step]
        congr
      · simp [spec, lib_step]
    · refine ⟨?a2, (?b2 : Ends (sys c) [((0, 0), [.bang])] _ _), ?_⟩
      case b2 => simp [lib_step, lib_tgl, Op.eval, hr]; rfl
      refine ⟨?_, hq, ?_⟩
      · simp [spec, lib_step]
        congr
      · simp [spec, lib_step]

/-- bangs alternate; a number is taken over.  (Finding: after 5 and 0 a bang gives 1; in Pd it gives 5 again.) -/
theorem tgl_forgets : (spec.after [.ext 1 0 [.bang], .ext 2 0 [.bang], .ext 3 0 [.float 5], .ext 4 0 [.bang], .ext 5 0 [.bang]]).2 =
    [(1, 0, [.float 1]), (2, 0, [.float 0]), (3, 0, [.float 5]), (4, 0, [.float 0]), (5, 0, [.float 1])] := by decide +kernel

end Tgl

end Verif.Lib
