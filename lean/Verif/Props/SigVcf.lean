import Verif.Lib.Vcf
import Verif.Sig.Vcf
import Verif.Props.SigBiquad
import Verif.Props.SigPole
/-!
# C75 (continued): `[vcf~]`
-/
namespace Verif.Lib
open Verif.Control (Dest Kind Cast Patch Act Sys Env Big)

/-- numbers, and bangs, at inlet `i` -/
def NumsAt (i : Nat) : Ev → Prop
  | .ext _ j m => j = i ∧ (m = [.bang] ∨ ∃ q, m = [.float q])
  | .tick => False

/-- as a state -/
def oneStep (i : Nat) (p : ℚ) : Ev → ℚ
  | .ext _ j [.float q] => if j = i then q else p
  | _ => p

theorem one_fold (i : Nat) (p : ℚ) (es : List Ev) : es.foldl (oneStep i) p = lastAt i p es := by
  induction es using List.reverseRecOn with
  | nil => rfl
  | append_singleton es e ih =>
    rw [List.foldl_append, ih]
    show oneStep i (lastAt i p es) e = _
    unfold oneStep lastAt
    rw [List.filterMap_append]
    split
    · next j q => by_cases h1 : j = i <;> simp [numAt, h1]
    · next h =>
      have : numAt i e = none := by
        unfold numAt
        split
        · next j q => exact absurd rfl (h _ _ _)
        · rfl
      simp [this]

namespace Vcf
variable {a1 : ℚ} {c : Ctx} {s : St}

/-- the amplification: 2 - 2 / (q + 2), where a q below 0.00001 counts as 0 -/
def gain (q : ℚ) : ℚ := if q < 0.00001 then 1 else 2 - 2 / (q + 2)
/-- the numbers for the gap between pole and circle -/
def scale (q : ℚ) : ℚ := if q < 0.00001 then -1 else 1 / q
def bound (q : ℚ) : ℚ := if q < 0.00001 then -1 else q

/-- what the objects keep -/
structure Mem (c : Ctx) (q : ℚ) (s : St) : Prop where
  var : s.mem 32 = [.float q]
  lim : s.mem 51 = [.float 0.00001]
  queue : s.q = []
  s0 : lastSent s.log 0 = some (gain q)
  s1 : lastSent s.log 1 = some (6.28319 / c.sr)
  s2 : lastSent s.log 2 = some (scale q)
  s3 : lastSent s.log 3 = some (bound q)

theorem boot (hc : 0 < c.sr) (tab : Nat → List ℚ) :
    ∃ s, Ends (sys a1 c) [((38, 0), [.bang])] (start c (nodes a1) tab) s ∧ Mem c a1 s := by
  have h1 : (start c (nodes a1) tab).mem 32 = [.float a1] := rfl
  have h2 : (start c (nodes a1) tab).mem 51 = [.float 0.00001] := rfl
  have h3 : (start c (nodes a1) tab).q = [] := rfl
  have h4 : (start c (nodes a1) tab).log = [] := rfl
  by_cases hq : a1 < 0.00001
  · refine ⟨?s1, ?h1, ?_⟩
    case h1 =>
      simp [lib_step, lib_vcf, h1, h2, Op.eval, hc.ne', tf, not_le.2 hq]
      rfl
    refine ⟨?_, ?_, ?_, ?_, ?_, ?_, ?_⟩
    all_goals simp [lib_step, h1, h2, h3, h4, lastSent, gain, scale, bound, hq]
    norm_num
  · have h0 : a1 ≠ 0 := fun h => hq (by rw [h]; norm_num)
    have h2' : a1 + 2 ≠ 0 := by have := not_lt.1 hq; norm_num at this; linarith
    refine ⟨?s2, ?h2, ?_⟩
    case h2 =>
      simp [lib_step, lib_vcf, h1, h2, Op.eval, hc.ne', tf, h0, h2', not_lt.1 hq]
      rfl
    refine ⟨?_, ?_, ?_, ?_, ?_, ?_, ?_⟩
    all_goals simp [lib_step, h1, h2, h3, h4, lastSent, gain, scale, bound, hq]

theorem run_q {t : Nat} {p q : ℚ} (h : Mem c p s) :
    ∃ s', Ends (sys a1 c) [((0, 2), [.float q])] { s with now := t } s' ∧ Mem c q s' := by
  obtain ⟨h1, h2, h3, -, h4, -, -⟩ := h
  unfold lastSent at h4
  by_cases hq : q < 0.00001
  · refine ⟨?s1, ?h1, ?_⟩
    case h1 =>
      simp [lib_step, lib_vcf, h2, Op.eval, tf, not_le.2 hq]
      rfl
    refine ⟨?_, ?_, ?_, ?_, ?_, ?_, ?_⟩
    all_goals simp [lib_step, h2, h3, h4, lastSent, gain, scale, bound, hq]
    norm_num
  · have h0 : q ≠ 0 := fun h => hq (by rw [h]; norm_num)
    have h2' : q + 2 ≠ 0 := by have := not_lt.1 hq; norm_num at this; linarith
    refine ⟨?s2, ?h2, ?_⟩
    case h2 =>
      simp [lib_step, lib_vcf, h2, Op.eval, tf, h0, h2', not_lt.1 hq]
      rfl
    refine ⟨?_, ?_, ?_, ?_, ?_, ?_, ?_⟩
    all_goals simp [lib_step, h2, h3, h4, lastSent, gain, scale, bound, hq]

theorem run_bang {t : Nat} {q : ℚ} (h : Mem c q s) :
    ∃ s', Ends (sys a1 c) [((0, 2), [.bang])] { s with now := t } s' ∧ Mem c q s' := by
  obtain ⟨h1, h2, h3, -, h4, -, -⟩ := h
  unfold lastSent at h4
  by_cases hq : q < 0.00001
  · refine ⟨?s1, ?h1, ?_⟩
    case h1 =>
      simp [lib_step, lib_vcf, h1, h2, Op.eval, tf, not_le.2 hq]
      rfl
    refine ⟨?_, ?_, ?_, ?_, ?_, ?_, ?_⟩
    all_goals simp [lib_step, h1, h2, h3, h4, lastSent, gain, scale, bound, hq]
    norm_num
  · have h0 : q ≠ 0 := fun h => hq (by rw [h]; norm_num)
    have h2' : q + 2 ≠ 0 := by have := not_lt.1 hq; norm_num at this; linarith
    refine ⟨?s2, ?h2, ?_⟩
    case h2 =>
      simp [lib_step, lib_vcf, h1, h2, Op.eval, tf, h0, h2', not_lt.1 hq]
      rfl
    refine ⟨?_, ?_, ?_, ?_, ?_, ?_, ?_⟩
    all_goals simp [lib_step, h1, h2, h3, h4, lastSent, gain, scale, bound, hq]

theorem simulates (hc : 0 < c.sr) (tab : Nat → List ℚ) :
    Simulates (mach a1 c) drv (start c (nodes a1) tab) (NumsAt 2) (oneStep 2) a1 (Mem c) where
  boot := boot hc tab
  step {p s e} hs hf hcan := by
    match e, hf with
    | .ext t i m, ⟨h1, h2⟩ =>
      subst h1
      rcases h2 with rfl | ⟨q, rfl⟩
      · obtain ⟨s', h3, h4⟩ := run_bang (a1 := a1) (t := t) hs
        exact ⟨s', happens_ext.mpr ⟨hcan.1, hcan.2, h3⟩, h4⟩
      · obtain ⟨s', h3, h4⟩ := run_q (a1 := a1) (t := t) (q := q) hs
        exact ⟨s', happens_ext.mpr ⟨hcan.1, hcan.2, h3⟩, h4⟩

theorem inlet_of {e : Ev} (he : NumsAt 2 e) : Inlet e := by
  cases e with
  | ext t i m => obtain ⟨rfl, -⟩ := he; simp [Inlet]
  | tick => exact he.elim

/-- **C75** the messages in `[vcf~]`: in the generated code, after every history of numbers and bangs at the right inlet -/
theorem coefficients (hc : 0 < c.sr) (M : Mach) (hM : Code a1 c M) (tab : Nat → List ℚ) (es : List Ev) (hes : ∀ e ∈ es, NumsAt 2 e) (s : St)
    (hr : Runs M drv (start c (nodes a1) tab) es s) :
    lastSent s.log 0 = some (gain (lastAt 2 a1 es)) ∧ lastSent s.log 1 = some (6.28319 / c.sr) ∧
      lastSent s.log 2 = some (scale (lastAt 2 a1 es)) ∧ lastSent s.log 3 = some (bound (lastAt 2 a1 es)) := by
  have h := (to_code hM (Fits := NumsAt 2) (fun _ => inlet_of) (simulates (a1 := a1) hc tab)).runs hes hr
  rw [one_fold] at h
  exact ⟨h.1.s0, h.1.s1, h.1.s2, h.1.s3⟩

end Vcf
end Verif.Lib

namespace Verif.Sig
open Verif.Reduce
open Verif.Simd (D IsCPole)
open Verif.Lib (Msg Ctx Mach Ev St Runs NumsAt lastAt lastSent start)

/-- the messages that come through the connections `ins` are those which the code sent to the object `k` -/
def SentTo (log : List (Sent Msg)) (ins : List Conn) (code : List (ℕ × ℕ × Msg)) (k : ℕ) : Prop :=
  received log ins = (code.filter fun e => e.2.1 = k).map (·.2.2)

theorem held_sent {W : World ℝ Msg} (hn : W.num = firstNum) {log : List (Sent Msg)} {ins : List Conn} {k : ℕ} {code : List (ℕ × ℕ × Msg)}
    (h : SentTo log ins code k) {q : ℚ} (hq : lastSent code k = some q) (init : ℝ) : held W init (received log ins) = q := by
  have e : SentBy ((code.filter fun e => e.2.1 = k).map fun e => (⟨0, 0, e.2.2⟩ : Sent Msg)) 0 code k := by
    unfold SentBy
    rw [List.filter_map, List.map_map, List.filter_eq_self.2 (by simp)]
    rfl
  have hh := held_code hn e hq init 0 0
  rw [received_one, e] at hh
  rw [h, hh]

/-- the code of `[vcf~]` runs beside the signals -/
def VcfRuns (a1 : ℚ) (c : Ctx) (M : Mach) (tab : ℕ → List ℚ) (es : ℕ → List Ev) (log : ℕ → List (Sent Msg)) : Prop :=
  ∀ t, ∃ s, Runs M Lib.Vcf.drv (start c (Lib.Vcf.nodes a1) tab) (es t) s ∧ SentTo (log t) ((Vcf.patch a1).ins 19 1) s.log 0 ∧
    SentTo (log t) ((Vcf.patch a1).ins 11 1) s.log 1 ∧ SentTo (log t) ((Vcf.patch a1).ins 12 1) s.log 2 ∧
    SentTo (log t) ((Vcf.patch a1).ins 36 1) s.log 3

/-- the distance of the pole from the unit circle: the angle by q, at most 1; 1 for a q below 0.00001 -/
noncomputable def vcfGap (ω : ℝ) (q : ℚ) : ℝ := if q < 0.00001 then 1 else min (ω / q) 1

section vcf
variable {W : World ℝ Msg} {log : ℕ → List (Sent Msg)} {v : ℕ → ℕ → ℕ → ℝ} {a1 : ℚ} {c : Ctx} {M : Mach} {tab : ℕ → List ℚ}
  {es : ℕ → List Ev}

/-- the angle of the pole: 2π f / sample rate, at least 0.00001 -/
noncomputable def angle (c : Ctx) (f : ℕ → ℝ) (t : ℕ) : ℝ := max (f t * ((6.28319 / c.sr : ℚ) : ℝ)) 0.00001

/-- **C75** `[vcf~]`: y[n] = g d x[n] + (1 - d) e^(iω) y[n-1], of complex numbers, where ω is 2π f / sample rate with the frequency f of
every sample, d = min (ω/q) 1, g = 2 - 2/(q + 2) and q the last number at the right inlet or the argument.  (The imaginary part of the
pole is never negative.) -/
theorem vcf_tilde (hn : W.num = firstNum) (hW : IsReal W) (hcos : ∀ x, W.un "cos" x = Real.cos x) (hp : Named (Vcf.special a1) "__cpole~f" (fun o _ => IsPoleC W o))
    (h : Solves W (Vcf.patch a1) log v) (hc : 0 < c.sr) (hM : Lib.Vcf.Code a1 c M) (hr : VcfRuns a1 c M tab es log)
    (hes : ∀ t, ∀ e ∈ es t, NumsAt 2 e) (t : ℕ) :
    let y := cpx (inSum v ((Vcf.patch a1).ins Vcf.out0 0)) (inSum v ((Vcf.patch a1).ins Vcf.out1 0))
    let ω := angle c (v Vcf.in1 0) t
    let q := lastAt 2 a1 (es t)
    y t = ((Lib.Vcf.gain q : ℚ) : ℝ) * vcfGap ω q * v Vcf.in0 0 t + (1 - vcfGap ω q) * (⟨Real.cos ω, |Real.sin ω|⟩ : ℂ) * D y 1 t := by
  intro y ω q
  obtain ⟨s, hs, m0, m1, m2, m3⟩ := hr t
  obtain ⟨c0, c1, c2, c3⟩ := Lib.Vcf.coefficients hc M hM tab (es t) (hes t) s hs
  have h19 : v 19 0 t = v 18 0 t * _ := (Vcf.n19 h t).trans (by rw [← show (Vcf.patch (a1 : ℝ)).ins 19 1 = [⟨8, 0, 19, 1, .c⟩] by simp [Vcf.patch, ofConns, Vcf.conns, Conn.into], held_sent hn m0 c0])
  have h11 : v 11 0 t = v 0 0 t * _ := (Vcf.n11 h t).trans (by rw [← show (Vcf.patch (a1 : ℝ)).ins 11 1 = [⟨10, 0, 11, 1, .c⟩] by simp [Vcf.patch, ofConns, Vcf.conns, Conn.into], held_sent hn m1 c1])
  have h12 : v 12 0 t = v 36 0 t * _ := (Vcf.n12 h t).trans (by rw [← show (Vcf.patch (a1 : ℝ)).ins 12 1 = [⟨34, 0, 12, 1, .c⟩, ⟨37, 0, 12, 1, .c⟩] by simp [Vcf.patch, ofConns, Vcf.conns, Conn.into], held_sent hn m2 c2])
  have h36 : v 36 0 t = min (v 39 0 t) _ := (Vcf.n36 h t).trans (by rw [hW.min, ← show (Vcf.patch (a1 : ℝ)).ins 36 1 = [⟨37, 0, 36, 1, .c⟩, ⟨38, 1, 36, 1, .c⟩] by simp [Vcf.patch, ofConns, Vcf.conns, Conn.into], held_sent hn m3 c3])
  have h39 : v 39 0 t = ω := by rw [Vcf.n39 h t, hW.max, h11]; rfl
  have hω : (0.00001 : ℝ) ≤ ω := le_max_right _ _
  have hω0 : (0 : ℝ) < ω := lt_of_lt_of_le (by norm_num) hω
  have hgap : v 12 0 t = vcfGap ω q := by
    rw [h12, h36, h39]
    show min ω ((Lib.Vcf.bound q : ℚ) : ℝ) * ((Lib.Vcf.scale q : ℚ) : ℝ) = _
    unfold vcfGap Lib.Vcf.bound Lib.Vcf.scale
    split
    · push_cast
      rw [min_eq_right (by linarith)]
      norm_num
    · next hq =>
      have hq' : (0 : ℚ) < q := lt_of_lt_of_le (by norm_num) (not_lt.1 hq)
      have hq0 : (0 : ℝ) < (q : ℝ) := by exact_mod_cast hq'
      push_cast
      rw [one_div, ← div_eq_mul_inv, ← min_div_div_right hq0.le, div_self hq0.ne']
  have hsin : v 25 0 t = |Real.sin ω| := by
    have e : v 23 0 t = Real.sin ω ^ 2 := by
      rw [Vcf.n23 h, Vcf.n13 h, Vcf.n22 h, Vcf.n31 h, hcos, h39]
      linarith [Real.sin_sq_add_cos_sq ω]
    rw [Vcf.n25 h, Vcf.n27 h, hW.mask, Vcf.n26 h, Vcf.n24 h, e, hW.sqrt _ (sq_nonneg _), Real.sqrt_sq_eq_abs]
    split
    · rfl
    · next hz =>
      have : Real.sin ω = 0 := by
        by_contra hne
        exact hz (lt_of_le_of_ne (sq_nonneg _) (Ne.symm (pow_ne_zero 2 hne)))
      rw [this, abs_zero]
  have hb := h 28 (by simp [Vcf.patch, ofConns])
  have hk : (Vcf.patch (a1 : ℝ)).kind 28 = .other "__cpole~f" := rfl
  simp only [Obeys, hk] at hb
  have hp := hp 28 [] (by simp [Vcf.special])
  have e := hp (fun i t => inSum v ((Vcf.patch (a1 : ℝ)).ins 28 i) t) (fun i t => received (log t) ((Vcf.patch (a1 : ℝ)).ins 28 i)) t
  have e0 : W.beh 28 (fun i t => inSum v ((Vcf.patch (a1 : ℝ)).ins 28 i) t) (fun i t => received (log t) ((Vcf.patch (a1 : ℝ)).ins 28 i)) 0 = v 28 0 :=
    funext fun t => (hb 0 t).symm
  have e1 : W.beh 28 (fun i t => inSum v ((Vcf.patch (a1 : ℝ)).ins 28 i) t) (fun i t => received (log t) ((Vcf.patch (a1 : ℝ)).ins 28 i)) 1 = v 28 1 :=
    funext fun t => (hb 1 t).symm
  rw [e0, e1] at e
  have i0 : inSum v ((Vcf.patch (a1 : ℝ)).ins 28 0) t = v 19 0 t := by simp [Vcf.patch, ofConns, Vcf.conns, Conn.into, inSum]
  have i1 : inSum v ((Vcf.patch (a1 : ℝ)).ins 28 1) t = 0 := by simp [Vcf.patch, ofConns, Vcf.conns, Conn.into, inSum]
  have i2 : inSum v ((Vcf.patch (a1 : ℝ)).ins 28 2) t = v 20 0 t := by simp [Vcf.patch, ofConns, Vcf.conns, Conn.into, inSum]
  have i3 : inSum v ((Vcf.patch (a1 : ℝ)).ins 28 3) t = v 21 0 t := by simp [Vcf.patch, ofConns, Vcf.conns, Conn.into, inSum]
  have ho0 : inSum v ((Vcf.patch (a1 : ℝ)).ins Vcf.out0 0) = v 28 0 := funext fun t => Vcf.o0 t
  have ho1 : inSum v ((Vcf.patch (a1 : ℝ)).ins Vcf.out1 0) = v 28 1 := funext fun t => Vcf.o1 t
  have hy : y = cpx (v 28 0) (v 28 1) := by simp only [y, ho0, ho1]
  obtain ⟨er, ei⟩ := e
  simp only [i0, i1, i2, i3] at er ei
  have hin : v 19 0 t = v 32 0 t * vcfGap ω q * ((Lib.Vcf.gain q : ℚ) : ℝ) := by rw [h19, Vcf.n18 h, hgap]
  have h20 : v 20 0 t = (vcfGap ω q - 1) * Real.cos ω := by rw [Vcf.n20 h, Vcf.n14 h, Vcf.n13 h, Vcf.n31 h, hcos, h39, hgap]
  have h21 : v 21 0 t = (vcfGap ω q - 1) * |Real.sin ω| := by rw [Vcf.n21 h, Vcf.n14 h, Vcf.n13 h, hsin, hgap]
  rw [hin, h20, h21] at er
  rw [h20, h21] at ei
  rw [hy, cpx_D]
  apply Complex.ext
  · simp [cpx, er]
    ring
  · simp [cpx, ei]
    ring

theorem vcfGap_range {ω : ℝ} (hω : 0 ≤ ω) (q : ℚ) : 0 ≤ vcfGap ω q ∧ vcfGap ω q ≤ 1 := by
  unfold vcfGap
  split
  · exact ⟨zero_le_one, le_rfl⟩
  · next h =>
    have : (0 : ℝ) ≤ (q : ℝ) := by exact_mod_cast (by linarith [not_lt.1 h, (by norm_num : (0 : ℚ) ≤ 0.00001)] : (0 : ℚ) ≤ q)
    exact ⟨le_min (div_nonneg hω this) zero_le_one, min_le_right _ _⟩

theorem gain_range (q : ℚ) : 1 ≤ Lib.Vcf.gain q ∧ Lib.Vcf.gain q ≤ 2 := by
  unfold Lib.Vcf.gain
  split
  · norm_num
  · next h =>
    have hq : (0 : ℚ) ≤ q := by linarith [not_lt.1 h, (by norm_num : (0 : ℚ) ≤ 0.00001)]
    have h1 : 0 ≤ 2 / (q + 2) := by positivity
    have h2 : 2 / (q + 2) ≤ 1 := by rw [div_le_one (by linarith)]; linarith
    constructor <;> linarith

/-- **C75** `[vcf~]` is never louder than twice its input, whatever the frequency signal does and whatever numbers come for q -/
theorem vcf_bounded (hn : W.num = firstNum) (hW : IsReal W) (hcos : ∀ x, W.un "cos" x = Real.cos x) (hp : Named (Vcf.special a1) "__cpole~f" (fun o _ => IsPoleC W o))
    (h : Solves W (Vcf.patch a1) log v) (hc : 0 < c.sr) (hM : Lib.Vcf.Code a1 c M) (hr : VcfRuns a1 c M tab es log)
    (hes : ∀ t, ∀ e ∈ es t, NumsAt 2 e) {B : ℝ} (hx : ∀ t, |v Vcf.in0 0 t| ≤ B) (t : ℕ) :
    ‖cpx (inSum v ((Vcf.patch a1).ins Vcf.out0 0)) (inSum v ((Vcf.patch a1).ins Vcf.out1 0)) t‖ ≤ 2 * B := by
  have hB : 0 ≤ B := (abs_nonneg _).trans (hx 0)
  have hrec := vcf_tilde hn hW hcos hp h hc hM hr hes
  generalize cpx (inSum v ((Vcf.patch (a1 : ℝ)).ins Vcf.out0 0)) (inSum v ((Vcf.patch (a1 : ℝ)).ins Vcf.out1 0)) = y at hrec
  have step : ∀ t, ‖D y 1 t‖ ≤ 2 * B → ‖y t‖ ≤ 2 * B := by
    intro t hd
    have e := hrec t
    simp only at e
    have hω : (0 : ℝ) ≤ angle c (v Vcf.in1 0) t := le_trans (by norm_num) (le_max_right _ _)
    generalize angle c (v Vcf.in1 0) t = ω at *
    obtain ⟨g0, g1⟩ := vcfGap_range hω (lastAt 2 a1 (es t))
    obtain ⟨k0, k1⟩ := gain_range (lastAt 2 a1 (es t))
    have k0' : (1 : ℝ) ≤ ((Lib.Vcf.gain (lastAt 2 a1 (es t)) : ℚ) : ℝ) := by exact_mod_cast k0
    have k1' : ((Lib.Vcf.gain (lastAt 2 a1 (es t)) : ℚ) : ℝ) ≤ 2 := by exact_mod_cast k1
    generalize ((Lib.Vcf.gain (lastAt 2 a1 (es t)) : ℚ) : ℝ) = g at *
    generalize vcfGap ω (lastAt 2 a1 (es t)) = d at *
    have hu : ‖(⟨Real.cos ω, |Real.sin ω|⟩ : ℂ)‖ = 1 := by
      rw [Complex.norm_def, Complex.normSq_mk, abs_mul_abs_self, ← pow_two, ← pow_two, Real.cos_sq_add_sin_sq, Real.sqrt_one]
    have hd1 : ‖((1 - d : ℝ) : ℂ)‖ = 1 - d := by rw [Complex.norm_real, Real.norm_eq_abs, abs_of_nonneg (by linarith)]
    have hin : ‖((g * d * v Vcf.in0 0 t : ℝ) : ℂ)‖ ≤ 2 * d * B := by
      rw [Complex.norm_real, Real.norm_eq_abs, abs_mul, abs_mul, abs_of_nonneg (by linarith : 0 ≤ g), abs_of_nonneg g0]
      have := hx t
      gcongr
    push_cast at hd1 hin
    rw [e]
    calc _ ≤ ‖(g : ℂ) * d * (v Vcf.in0 0 t : ℝ)‖ + ‖(1 - (d : ℂ)) * (⟨Real.cos ω, |Real.sin ω|⟩ : ℂ) * D y 1 t‖ := norm_add_le _ _
      _ ≤ 2 * d * B + (1 - d) * (2 * B) := by
        rw [norm_mul (_ * _) (D y 1 t), norm_mul (1 - (d : ℂ)), hd1, hu, mul_one]
        gcongr
      _ = 2 * B := by ring
  induction t with
  | zero => exact step 0 (by simp [D]; positivity)
  | succ t ih => exact step (t + 1) (by simpa [D] using ih)

/-- a world with real functions and one complex pole -/
noncomputable def vcfWorld (o i0 i1 : ℕ) (x f : ℕ → ℝ) : World ℝ Msg where
  bin := (realWorld 0 x).bin
  un s y := if s = "cos" then Real.cos y else (realWorld 0 x).un s y
  num := firstNum
  beh p sig _ j t :=
    if p = o then (if j = 0 then (Simd.cpoleRec (sig 0) (sig 1) (sig 2) (sig 3) t).1 else (Simd.cpoleRec (sig 0) (sig 1) (sig 2) (sig 3) t).2)
    else if p = i0 ∧ j = 0 then x t else if p = i1 ∧ j = 0 then f t else 0
  late _ _ := false
  block := 64

theorem vcfWorld_real (o i0 i1 : ℕ) (x f : ℕ → ℝ) : IsReal (vcfWorld o i0 i1 x f) where
  max _ _ := by simp [vcfWorld, realWorld]
  min _ _ := by simp [vcfWorld, realWorld]
  abs _ := by simp [vcfWorld, realWorld]
  floor _ := by simp [vcfWorld, realWorld]
  exp _ := by simp [vcfWorld, realWorld]
  log2 _ _ := by simp [vcfWorld, realWorld]
  sqrt _ _ := by simp [vcfWorld, realWorld]
  mask x y z := by
    simp only [vcfWorld, realWorld]
    by_cases h : x > y <;> simp [h]

theorem vcfWorld_pole (o i0 i1 : ℕ) (x f : ℕ → ℝ) : IsPoleC (vcfWorld o i0 i1 x f) o := by
  intro sig ms
  have h := Simd.cpoleRec_is (sig 0) (sig 1) (sig 2) (sig 3)
  have e0 : (vcfWorld o i0 i1 x f).beh o sig ms 0 = fun t => (Simd.cpoleRec (sig 0) (sig 1) (sig 2) (sig 3) t).1 := by
    funext t; simp [vcfWorld]
  have e1 : (vcfWorld o i0 i1 x f).beh o sig ms 1 = fun t => (Simd.cpoleRec (sig 0) (sig 1) (sig 2) (sig 3) t).2 := by
    funext t; simp [vcfWorld]
  rw [e0, e1]
  exact h

/-- the messages of the code, as messages of the objects `src` -/
def asSent (src : ℕ → ℕ × ℕ) (code : List (ℕ × ℕ × Msg)) : List (Sent Msg) :=
  code.map fun e => ⟨(src e.2.1).1, (src e.2.1).2, e.2.2⟩

theorem sentTo_asSent (src : ℕ → ℕ × ℕ) (code : List (ℕ × ℕ × Msg)) (ins : List Conn) (k : ℕ)
    (h : ∀ j (m : Msg), received [⟨(src j).1, (src j).2, m⟩] ins = if j = k then [m] else []) : SentTo (asSent src code) ins code k := by
  unfold SentTo asSent
  induction code with
  | nil => rfl
  | cons e l ih =>
    have h1 := h e.2.1 e.2.2
    unfold received at h1 ih ⊢
    rw [List.map_cons, List.flatMap_cons, ih]
    rw [List.flatMap_cons, List.flatMap_nil, List.append_nil] at h1
    rw [h1]
    by_cases hk : e.2.1 = k <;> simp [hk]

/-- where `[vcf~]` sends them -/
def vcfSrc (k : ℕ) : ℕ × ℕ := if k = 0 then (8, 0) else if k = 1 then (10, 0) else if k = 2 then (34, 0) else if k = 3 then (38, 1) else (99, 0)

/-- every two signals can be at the inlets of `[vcf~]` and its code runs beside it (here without messages from outside) -/
theorem vcf_example (a1 : ℚ) {c : Ctx} (hc : 0 < c.sr) (tab : ℕ → List ℚ) (x f : ℕ → ℝ) :
    ∃ (W : World ℝ Msg) (log : _) (v : _) (M : Mach), W.num = firstNum ∧ IsReal W ∧ (∀ x, W.un "cos" x = Real.cos x) ∧ Named (Vcf.special a1) "__cpole~f" (fun o _ => IsPoleC W o) ∧
      Solves W (Vcf.patch a1) log v ∧ Lib.Vcf.Code a1 c M ∧ VcfRuns a1 c M tab (fun _ => []) log ∧ v Vcf.in0 0 = x ∧ v Vcf.in1 0 = f := by
  obtain ⟨M, hM⟩ := Lib.Vcf.code_exists a1 c
  obtain ⟨s, hs⟩ := (Lib.Vcf.to_code hM (Fits := NumsAt 2) (fun _ => Lib.Vcf.inlet_of) (Lib.Vcf.simulates (a1 := a1) hc tab)).goes_on.1
  obtain ⟨v, hv⟩ := Vcf.signals (a1 : ℝ) (vcfWorld 28 32 0 x f) (fun _ => asSent vcfSrc s.log)
  refine ⟨_, _, v, M, rfl, vcfWorld_real _ _ _ _ _, fun x => by simp [vcfWorld], named_cons (fun _ => vcfWorld_pole _ _ _ _ _) (named_nil _ _), hv, hM,
    fun t => ⟨s, hs, ?_, ?_, ?_, ?_⟩, ?_, ?_⟩
  iterate 4
    · apply sentTo_asSent
      intro j m
      simp only [Vcf.patch, ofConns, Vcf.conns, Conn.into, vcfSrc, received]
      split <;> [skip; (split <;> [skip; (split <;> [skip; split])])] <;> simp_all
  · funext t
    have := hv 32 (by simp [Vcf.patch, ofConns])
    simp only [Obeys, Vcf.patch, ofConns, Vcf.kind] at this
    rw [this 0 t]
    simp [vcfWorld]
  · funext t
    have := hv 0 (by simp [Vcf.patch, ofConns])
    simp only [Obeys, Vcf.patch, ofConns, Vcf.kind] at this
    rw [this 0 t]
    simp [vcfWorld]

end vcf
end Verif.Sig
