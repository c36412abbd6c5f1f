import Verif.Lib.Lop
import Verif.Lib.Hip
import Verif.Sig.Lop
import Verif.Sig.Hip
import Verif.Props.SigFun
import Verif.Props.Simd
import Mathlib.Analysis.SpecificLimits.Basic
/-!
# C75: filters

`[lop~]` and `[hip~]`: the messages in them (generated code, `Verif.Lib`) make the coefficients of the signals in them (`Verif.Sig`).
-/
namespace Verif.Lib
open Verif.Control (Dest Kind Cast Patch Act Sys Env Big)

/-- the number that was sent last to the object `k` -/
def lastSent (log : List (Nat × Nat × Msg)) (k : Nat) : Option ℚ :=
  ((log.filter fun e => e.2.1 = k).filterMap fun e => match e.2.2 with | .float q :: _ => some q | _ => none).getLast?

/-- the last number that came at inlet 1, or the argument -/
def lastFreq (a1 : ℚ) (es : List Ev) : ℚ :=
  (es.filterMap fun e => match e with | .ext _ 1 [.float q] => some q | _ => none).getLast?.getD a1

/-- numbers, and bangs, at inlet 1 -/
def Freqs : Ev → Prop
  | .ext _ i m => i = 1 ∧ (m = [.bang] ∨ ∃ q, m = [.float q])
  | .tick => False

/-- a value restricted to 0...1 -/
def clip01 (x : ℚ) : ℚ := max (min x 1) 0

theorem clip01_nonneg (x : ℚ) : 0 ≤ clip01 x := le_max_right _ _
theorem clip01_le (x : ℚ) : clip01 x ≤ 1 := max_le (min_le_right _ _) (by norm_num)

/-- the spec as a state: the frequency -/
def freqStep (f : ℚ) : Ev → ℚ
  | .ext _ 1 [.float q] => q
  | _ => f

theorem freq_fold (a1 : ℚ) (es : List Ev) : es.foldl freqStep a1 = lastFreq a1 es := by
  induction es using List.reverseRecOn with
  | nil => rfl
  | append_singleton es e ih =>
    rw [List.foldl_append, ih]
    show freqStep (lastFreq a1 es) e = _
    unfold freqStep lastFreq
    rw [List.filterMap_append]
    split <;> simp_all

@[lib_step] theorem step_bink2 (c : Ctx) (op : Op) (k f g : ℚ) (o i : Nat) (m : Msg) (s : St) :
    step c (.bink op k) o i (.float f :: .float g :: m) s = (s, some (0, [.float (op.eval f g)])) := rfl

namespace Lop
variable {a1 : ℚ} {c : Ctx} {s : St}

/-- the coefficient of `[lop~]`: 2π f / sample rate, restricted to 0...1 -/
def coef (c : Ctx) (f : ℚ) : ℚ := clip01 (f * (6.28319 / c.sr))

/-- what the objects keep -/
structure Mem (c : Ctx) (f : ℚ) (s : St) : Prop where
  var : s.mem 6 = [.float f]
  w : s.mem 16 = [.float (6.28319 / c.sr)]
  hi : s.mem 29 = [.float 1]
  lo : s.mem 30 = [.float 0]
  q : s.q = []
  gain : lastSent s.log 0 = some (coef c f)
  back : lastSent s.log 1 = some (coef c f - 1)

theorem boot (hc : 0 < c.sr) (tab : Nat → List ℚ) : ∃ s, Ends (sys a1 c) [((3, 0), [.bang])] (start c (nodes a1) tab) s ∧ Mem c a1 s := by
  have h6 : (start c (nodes a1) tab).mem 6 = [.float a1] := rfl
  have h16 : (start c (nodes a1) tab).mem 16 = [.float 0] := rfl
  have h29 : (start c (nodes a1) tab).mem 29 = [.float 1] := rfl
  have h30 : (start c (nodes a1) tab).mem 30 = [.float 0] := rfl
  have hq : (start c (nodes a1) tab).q = [] := rfl
  have hl : (start c (nodes a1) tab).log = [] := rfl
  refine ⟨?s1, ?h1, ?_⟩
  case h1 =>
    simp [lib_step, lib_lop, h6, h16, h29, h30, Op.eval, hc.ne']
    rfl
  refine ⟨?_, ?_, ?_, ?_, ?_, ?_, ?_⟩ <;> simp [lib_step, h6, h16, h29, h30, hq, hl, lastSent, coef, clip01]

theorem run_float {t : Nat} {f q : ℚ} (h : Mem c f s) :
    ∃ s', Ends (sys a1 c) [((0, 1), [.float q])] { s with now := t } s' ∧ Mem c q s' := by
  obtain ⟨h6, h16, h29, h30, hq, -, -⟩ := h
  refine ⟨?s1, ?h1, ?_⟩
  case h1 =>
    simp [lib_step, lib_lop, h16, h29, h30, Op.eval]
    rfl
  refine ⟨?_, ?_, ?_, ?_, ?_, ?_, ?_⟩ <;> simp [lib_step, h16, h29, h30, hq, lastSent, coef, clip01]

theorem run_bang {t : Nat} {f : ℚ} (h : Mem c f s) :
    ∃ s', Ends (sys a1 c) [((0, 1), [.bang])] { s with now := t } s' ∧ Mem c f s' := by
  obtain ⟨h6, h16, h29, h30, hq, -, -⟩ := h
  refine ⟨?s1, ?h1, ?_⟩
  case h1 =>
    simp [lib_step, lib_lop, h6, h16, h29, h30, Op.eval]
    rfl
  refine ⟨?_, ?_, ?_, ?_, ?_, ?_, ?_⟩ <;> simp [lib_step, h6, h16, h29, h30, hq, lastSent, coef, clip01]

theorem simulates (hc : 0 < c.sr) (tab : Nat → List ℚ) :
    Simulates (mach a1 c) drv (start c (nodes a1) tab) Freqs freqStep a1 (Mem c) where
  boot := boot hc tab
  step {f s e} hs hf hcan := by
    match e, hf with
    | .ext t i m, ⟨h1, h2⟩ =>
      subst h1
      rcases h2 with rfl | ⟨q, rfl⟩
      · obtain ⟨s', h3, h4⟩ := run_bang (a1 := a1) (t := t) hs
        exact ⟨s', happens_ext.mpr ⟨hcan.1, hcan.2, h3⟩, h4⟩
      · obtain ⟨s', h3, h4⟩ := run_float (a1 := a1) (t := t) (q := q) hs
        exact ⟨s', happens_ext.mpr ⟨hcan.1, hcan.2, h3⟩, h4⟩

/-- **C75** the messages in `[lop~]`: in the generated code, after every history of numbers and bangs at the right inlet, the numbers
sent last to the signal objects `[*~]` and `[sig~]` are those of the frequency that came last (or the argument) -/
theorem coefficients (hc : 0 < c.sr) (M : Mach) (hM : Code a1 c M) (tab : Nat → List ℚ) (es : List Ev) (hes : ∀ e ∈ es, Freqs e) (s : St)
    (hr : Runs M drv (start c (nodes a1) tab) es s) :
    lastSent s.log 0 = some (coef c (lastFreq a1 es)) ∧ lastSent s.log 1 = some (coef c (lastFreq a1 es) - 1) := by
  have h := (to_code hM (Fits := Freqs) (fun e he => by cases e with | ext t i m => exact he.1 ▸ (by decide : 1 < 2) | tick => exact he.elim) (simulates (a1 := a1) hc tab)).runs hes hr
  rw [freq_fold] at h
  exact ⟨h.1.gain, h.1.back⟩

end Lop

namespace Hip
variable {a1 : ℚ} {c : Ctx} {s : St}

/-- the coefficient of `[hip~]`: 1 - 2π f / sample rate, restricted to 0...1, with a frequency of at least 1 -/
def coef (c : Ctx) (f : ℚ) : ℚ := clip01 (1 - max f 1 * 6.28319 / c.sr)

/-- what the objects keep -/
structure Mem (c : Ctx) (f : ℚ) (s : St) : Prop where
  var : s.mem 20 = [.float f]
  w : s.mem 38 = [.float c.sr]
  hi : s.mem 9 = [.float 1]
  lo : s.mem 10 = [.float 0]
  q : s.q = []
  gain : lastSent s.log 0 = some ((1 + coef c f) / 2)
  back : lastSent s.log 1 = some (-coef c f)

theorem boot (hc : 0 < c.sr) (tab : Nat → List ℚ) : ∃ s, Ends (sys a1 c) [((18, 0), [.bang])] (start c (nodes a1) tab) s ∧ Mem c a1 s := by
  have h6 : (start c (nodes a1) tab).mem 20 = [.float a1] := rfl
  have h29 : (start c (nodes a1) tab).mem 9 = [.float 1] := rfl
  have h30 : (start c (nodes a1) tab).mem 10 = [.float 0] := rfl
  have hq : (start c (nodes a1) tab).q = [] := rfl
  have hl : (start c (nodes a1) tab).log = [] := rfl
  refine ⟨?s1, ?h1, ?_⟩
  case h1 =>
    simp [lib_step, lib_hip, h6, h29, h30, Op.eval, hc.ne']
    rfl
  refine ⟨?_, ?_, ?_, ?_, ?_, ?_, ?_⟩ <;> simp [lib_step, h6, h29, h30, hq, hl, lastSent, coef, clip01] <;> ring

theorem run_float (hc : 0 < c.sr) {t : Nat} {f q : ℚ} (h : Mem c f s) :
    ∃ s', Ends (sys a1 c) [((0, 1), [.float q])] { s with now := t } s' ∧ Mem c q s' := by
  obtain ⟨h6, h16, h29, h30, hq, -, -⟩ := h
  refine ⟨?s1, ?h1, ?_⟩
  case h1 =>
    simp [lib_step, lib_hip, h16, h29, h30, Op.eval, hc.ne']
    rfl
  refine ⟨?_, ?_, ?_, ?_, ?_, ?_, ?_⟩ <;> simp [lib_step, h16, h29, h30, hq, lastSent, coef, clip01] <;> ring

theorem run_bang (hc : 0 < c.sr) {t : Nat} {f : ℚ} (h : Mem c f s) :
    ∃ s', Ends (sys a1 c) [((0, 1), [.bang])] { s with now := t } s' ∧ Mem c f s' := by
  obtain ⟨h6, h16, h29, h30, hq, -, -⟩ := h
  refine ⟨?s1, ?h1, ?_⟩
  case h1 =>
    simp [lib_step, lib_hip, h6, h16, h29, h30, Op.eval, hc.ne']
    rfl
  refine ⟨?_, ?_, ?_, ?_, ?_, ?_, ?_⟩ <;> simp [lib_step, h6, h16, h29, h30, hq, lastSent, coef, clip01] <;> ring

theorem simulates (hc : 0 < c.sr) (tab : Nat → List ℚ) :
    Simulates (mach a1 c) drv (start c (nodes a1) tab) Freqs freqStep a1 (Mem c) where
  boot := boot hc tab
  step {f s e} hs hf hcan := by
    match e, hf with
    | .ext t i m, ⟨h1, h2⟩ =>
      subst h1
      rcases h2 with rfl | ⟨q, rfl⟩
      · obtain ⟨s', h3, h4⟩ := run_bang (a1 := a1) hc (t := t) hs
        exact ⟨s', happens_ext.mpr ⟨hcan.1, hcan.2, h3⟩, h4⟩
      · obtain ⟨s', h3, h4⟩ := run_float (a1 := a1) hc (t := t) (q := q) hs
        exact ⟨s', happens_ext.mpr ⟨hcan.1, hcan.2, h3⟩, h4⟩

/-- **C75** the messages in `[hip~]` -/
theorem coefficients (hc : 0 < c.sr) (M : Mach) (hM : Code a1 c M) (tab : Nat → List ℚ) (es : List Ev) (hes : ∀ e ∈ es, Freqs e) (s : St)
    (hr : Runs M drv (start c (nodes a1) tab) es s) :
    lastSent s.log 0 = some ((1 + coef c (lastFreq a1 es)) / 2) ∧ lastSent s.log 1 = some (-coef c (lastFreq a1 es)) := by
  have h := (to_code hM (Fits := Freqs) (fun e he => by cases e with | ext t i m => exact he.1 ▸ (by decide : 1 < 2) | tick => exact he.elim) (simulates (a1 := a1) hc tab)).runs hes hr
  rw [freq_fold] at h
  exact ⟨h.1.gain, h.1.back⟩

end Hip
end Verif.Lib

namespace Verif.Sig
open Verif.Reduce
open Verif.Simd (D IsRPole)
open Verif.Lib (Msg Ctx Mach Ev St Runs Freqs lastFreq lastSent start)

/-- the object `o` is a `__rpole~f` (C25: the generated code is one) -/
def IsPole (W : World ℝ Msg) (o : ℕ) : Prop := ∀ sig ms, IsRPole (sig 0) (sig 1) (W.beh o sig ms 0)

/-- the object `o` is a `__del1~f` (C25: the generated code is one) -/
def IsDelay (W : World ℝ Msg) (o : ℕ) : Prop := ∀ sig ms t, W.beh o sig ms 0 t = D (sig 0) 1 t

/-- the number at the beginning of a message -/
def firstNum : Msg → Option ℝ
  | .float q :: _ => some (q : ℝ)
  | _ => none

/-- the messages from outlet 0 of object `src` are those which the code sent to the object `k` -/
def SentBy (log : List (Sent Msg)) (src : ℕ) (code : List (ℕ × ℕ × Msg)) (k : ℕ) : Prop :=
  (log.filter fun e => e.src = src ∧ e.outlet = 0).map (·.msg) = (code.filter fun e => e.2.1 = k).map (·.2.2)

theorem held_code {W : World ℝ Msg} (hn : W.num = firstNum) {log : List (Sent Msg)} {src k : ℕ} {code : List (ℕ × ℕ × Msg)}
    (h : SentBy log src code k) {q : ℚ} (hq : lastSent code k = some q) (init : ℝ) (c d : ℕ) :
    held W init (received log [⟨src, 0, c, d, .c⟩]) = q := by
  rw [received_one, h, held, hn, List.filterMap_map]
  have e : ∀ l : List (ℕ × ℕ × Msg), List.filterMap (firstNum ∘ fun x => x.2.2) l =
      (l.filterMap fun e => match e.2.2 with | .float q :: _ => some q | _ => none).map (fun q : ℚ => (q : ℝ)) := by
    intro l
    rw [List.map_filterMap]
    congr 1
    funext e
    simp only [Function.comp, firstNum]
    split <;> simp_all
  rw [e, List.getLast?_map]
  unfold lastSent at hq
  rw [hq]
  rfl

theorem pole_of {W : World ℝ Msg} {g : Graph ℝ} {log : ℕ → List (Sent Msg)} {v : ℕ → ℕ → ℕ → ℝ} {o a b : ℕ} {s : String} (hp : IsPole W o)
    (h : Solves W g log v) (ho : o ∈ g.ids) (hk : g.kind o = .other s) (e0 : ∀ t, inSum v (g.ins o 0) t = v a 0 t)
    (e1 : ∀ t, inSum v (g.ins o 1) t = v b 0 t) : IsRPole (v a 0) (v b 0) (v o 0) := by
  have hb := h o ho
  simp only [Obeys, hk] at hb
  have e := hp (fun i t => inSum v (g.ins o i) t) (fun i t => received (log t) (g.ins o i))
  have e2 : W.beh o (fun i t => inSum v (g.ins o i) t) (fun i t => received (log t) (g.ins o i)) 0 = v o 0 := funext fun t => (hb 0 t).symm
  rw [e2] at e
  intro t
  have h1 : v o 0 t = inSum v (g.ins o 0) t - inSum v (g.ins o 1) t * D (v o 0) 1 t := e t
  rw [e0, e1] at h1
  exact h1

theorem delay_of {W : World ℝ Msg} {g : Graph ℝ} {log : ℕ → List (Sent Msg)} {v : ℕ → ℕ → ℕ → ℝ} {o a : ℕ} {s : String} (hp : IsDelay W o)
    (h : Solves W g log v) (ho : o ∈ g.ids) (hk : g.kind o = .other s) (e0 : ∀ t, inSum v (g.ins o 0) t = v a 0 t) (t : ℕ) :
    v o 0 t = D (v a 0) 1 t := by
  have hb := h o ho
  simp only [Obeys, hk] at hb
  rw [hb 0 t, hp]
  unfold D
  split
  · exact e0 _
  · rfl

/-- the code of `[lop~]` runs beside the signals: until sample `t` the events `es t` have happened, and the messages it has sent are those
of the patch -/
def LopRuns (a1 : ℚ) (c : Ctx) (M : Mach) (tab : ℕ → List ℚ) (es : ℕ → List Ev) (log : ℕ → List (Sent Msg)) : Prop :=
  ∀ t, ∃ s, Runs M Lib.Lop.drv (start c (Lib.Lop.nodes a1) tab) (es t) s ∧ SentBy (log t) 12 s.log 0 ∧ SentBy (log t) 15 s.log 1

/-- a one-pole low-pass filter: y[n] = k x[n] + (1 - k) y[n-1] -/
def IsLop (k x y : ℕ → ℝ) : Prop := ∀ t, y t = k t * x t + (1 - k t) * D y 1 t

section lop
variable {W : World ℝ Msg} {log : ℕ → List (Sent Msg)} {v : ℕ → ℕ → ℕ → ℝ} {a1 : ℚ} {c : Ctx} {M : Mach} {tab : ℕ → List ℚ}
  {es : ℕ → List Ev}

/-- **C75** `[lop~]`: y[n] = k x[n] + (1 - k) y[n-1], where k is 2π f / sample rate restricted to 0...1, and f the last number at the
right inlet or the argument -/
theorem lop_tilde (hn : W.num = firstNum) (hp : Named (Lop.special a1) "__rpole~f" (fun o _ => IsPole W o)) (h : Solves W (Lop.patch a1) log v) (hc : 0 < c.sr)
    (hM : Lib.Lop.Code a1 c M) (hr : LopRuns a1 c M tab es log) (hes : ∀ t, ∀ e ∈ es t, Freqs e) :
    IsLop (fun t => ((Lib.Lop.coef c (lastFreq a1 (es t)) : ℚ) : ℝ)) (v Lop.in0 0) (inSum v ((Lop.patch a1).ins Lop.out0 0)) := by
  intro t
  have hp := hp 14 [] (by simp [Lop.special])
  obtain ⟨s, hs, h0, h1⟩ := hr t
  obtain ⟨c0, c1⟩ := Lib.Lop.coefficients hc M hM tab (es t) (hes t) s hs
  have h7 := Lop.n7 h t
  have h9 := Lop.n9 h t
  rw [held_code hn h0 c0] at h7
  rw [held_code hn h1 c1] at h9
  have hb := pole_of hp h (by simp [Lop.patch, ofConns]) rfl (a := 7) (b := 9) (fun t => by simp [Lop.patch, ofConns, Lop.conns, Conn.into, inSum])
    (fun t => by simp [Lop.patch, ofConns, Lop.conns, Conn.into, inSum]) t
  have ho : inSum v ((Lop.patch (a1 : ℝ)).ins Lop.out0 0) = v 14 0 := funext fun t => Lop.o0 t
  rw [ho, hb, h7, h9]
  push_cast
  ring

/-- **C75** a low-pass filter is never louder than its input, however its frequency changes -/
theorem lop_bounded {k x y : ℕ → ℝ} (h : IsLop k x y) (h0 : ∀ t, 0 ≤ k t) (h1 : ∀ t, k t ≤ 1) {lo hi : ℝ} (hl : lo ≤ 0) (hh : 0 ≤ hi)
    (hx : ∀ t, lo ≤ x t ∧ x t ≤ hi) (t : ℕ) : lo ≤ y t ∧ y t ≤ hi := by
  have step : ∀ t, (lo ≤ D y 1 t ∧ D y 1 t ≤ hi) → lo ≤ y t ∧ y t ≤ hi := by
    intro t ⟨d0, d1⟩
    obtain ⟨x0, x1⟩ := hx t
    have a0 := h0 t
    have a1 := h1 t
    rw [h t]
    constructor <;> nlinarith
  induction t with
  | zero => exact step 0 (by simp [D, hl, hh])
  | succ t ih => exact step (t + 1) (by simpa [D] using ih)

/-- **C75** while the input and the frequency stay, the output comes nearer to the input by the factor 1 - k in every sample -/
theorem lop_settles {k x y : ℕ → ℝ} (h : IsLop k x y) {t0 : ℕ} {κ ξ : ℝ} (hk : ∀ t, t0 < t → k t = κ) (hx : ∀ t, t0 < t → x t = ξ) (n : ℕ) :
    y (t0 + n) - ξ = (1 - κ) ^ n * (y t0 - ξ) := by
  induction n with
  | zero => simp
  | succ n ih =>
    have := h (t0 + (n + 1))
    rw [hk _ (by omega), hx _ (by omega)] at this
    have e : D y 1 (t0 + (n + 1)) = y (t0 + n) := by simp [D, ← Nat.add_assoc]
    rw [e] at this
    rw [this, pow_succ]
    linear_combination (1 - κ) * ih

theorem lop_limit {k x y : ℕ → ℝ} (h : IsLop k x y) {t0 : ℕ} {κ ξ : ℝ} (h0 : 0 < κ) (h1 : κ ≤ 1) (hk : ∀ t, t0 < t → k t = κ)
    (hx : ∀ t, t0 < t → x t = ξ) : Filter.Tendsto y Filter.atTop (nhds ξ) := by
  rw [← Filter.tendsto_add_atTop_iff_nat t0]
  have e : (fun n => y (n + t0)) = fun n => (1 - κ) ^ n * (y t0 - ξ) + ξ := by
    funext n
    have := lop_settles h hk hx n
    rw [Nat.add_comm] at this
    linarith
  rw [e]
  have := (tendsto_pow_atTop_nhds_zero_of_lt_one (r := 1 - κ) (by linarith) (by linarith)).mul_const (y t0 - ξ)
  have := this.add_const ξ
  simpa using this

/-- **C75** `[lop~]` is never louder than its input, for every history of frequencies -/
theorem lop_tilde_bounded (hn : W.num = firstNum) (hp : Named (Lop.special a1) "__rpole~f" (fun o _ => IsPole W o)) (h : Solves W (Lop.patch a1) log v) (hc : 0 < c.sr)
    (hM : Lib.Lop.Code a1 c M) (hr : LopRuns a1 c M tab es log) (hes : ∀ t, ∀ e ∈ es t, Freqs e) {B : ℝ} (hx : ∀ t, |v Lop.in0 0 t| ≤ B) (t : ℕ) :
    |inSum v ((Lop.patch a1).ins Lop.out0 0) t| ≤ B := by
  have hB : 0 ≤ B := (abs_nonneg _).trans (hx 0)
  refine abs_le.2 (lop_bounded (lop_tilde hn hp h hc hM hr hes) (fun t => ?_) (fun t => ?_) (by linarith) hB (fun t => abs_le.1 (hx t)) t)
  · exact_mod_cast Lib.clip01_nonneg _
  · exact_mod_cast Lib.clip01_le _

/-- a world with a pole -/
noncomputable def poleWorld (pole del inp : ℕ) (x : ℕ → ℝ) : World ℝ Msg where
  bin _ _ _ := 0
  un _ _ := 0
  num := firstNum
  beh o sig _ j t := if o = pole then Simd.rpoleRec (sig 0) (sig 1) t else if o = del then D (sig 0) 1 t else if o = inp ∧ j = 0 then x t else 0
  late _ _ := false
  block := 64

theorem poleWorld_pole (p d i : ℕ) (x : ℕ → ℝ) : IsPole (poleWorld p d i x) p := by
  intro sig ms
  have : (poleWorld p d i x).beh p sig ms 0 = Simd.rpoleRec (sig 0) (sig 1) := by funext t; simp [poleWorld]
  rw [this]
  exact Simd.rpoleRec_is _ _

theorem poleWorld_delay (p d i : ℕ) (h : d ≠ p) (x : ℕ → ℝ) : IsDelay (poleWorld p d i x) d := by
  intro sig ms t
  simp [poleWorld, h]

/-- every signal can be at the inlet of `[lop~]` and its code runs beside it (here without messages from outside) -/
theorem lop_example (a1 : ℚ) {c : Ctx} (hc : 0 < c.sr) (tab : ℕ → List ℚ) (x : ℕ → ℝ) :
    ∃ (W : World ℝ Msg) (log : _) (v : _) (M : Mach), W.num = firstNum ∧ Named (Lop.special a1) "__rpole~f" (fun o _ => IsPole W o) ∧
      Solves W (Lop.patch a1) log v ∧ Lib.Lop.Code a1 c M ∧
      LopRuns a1 c M tab (fun _ => []) log ∧ v Lop.in0 0 = x := by
  obtain ⟨M, hM⟩ := Lib.Lop.code_exists a1 c
  obtain ⟨s, hs⟩ := (Lib.Lop.to_code hM (Fits := Freqs)
    (fun e he => by cases e with | ext t i m => exact he.1 ▸ (by decide : 1 < 2) | tick => exact he.elim) (Lib.Lop.simulates (a1 := a1) hc tab)).goes_on.1
  let lg : List (Sent Msg) := s.log.filterMap fun e => if e.2.1 = 0 then some ⟨12, 0, e.2.2⟩ else if e.2.1 = 1 then some ⟨15, 0, e.2.2⟩ else none
  obtain ⟨v, hv⟩ := Lop.signals (a1 : ℝ) (poleWorld 14 99 1 x) (fun _ => lg)
  refine ⟨_, _, v, M, rfl, named_cons (fun _ => poleWorld_pole _ _ _ _) (named_nil _ _), hv, hM, fun t => ⟨s, hs, ?_, ?_⟩, ?_⟩
  · unfold SentBy
    simp only [lg]
    induction s.log with
    | nil => rfl
    | cons e l ih => by_cases h0 : e.2.1 = 0 <;> by_cases h1 : e.2.1 = 1 <;> simp_all
  · unfold SentBy
    simp only [lg]
    induction s.log with
    | nil => rfl
    | cons e l ih => by_cases h0 : e.2.1 = 0 <;> by_cases h1 : e.2.1 = 1 <;> simp_all
  · funext t
    have := hv 1 (by simp [Lop.patch, ofConns])
    simp only [Obeys, Lop.patch, ofConns, Lop.kind] at this
    rw [this 0 t]
    simp [poleWorld]

end lop

/-- the code of `[hip~]` runs beside the signals -/
def HipRuns (a1 : ℚ) (c : Ctx) (M : Mach) (tab : ℕ → List ℚ) (es : ℕ → List Ev) (log : ℕ → List (Sent Msg)) : Prop :=
  ∀ t, ∃ s, Runs M Lib.Hip.drv (start c (Lib.Hip.nodes a1) tab) (es t) s ∧ SentBy (log t) 1 s.log 0 ∧ SentBy (log t) 19 s.log 1

/-- a one-pole high-pass filter: a pole, a zero at 1, and the gain that makes it 1 at half the sample rate -/
def IsHip (k x w y : ℕ → ℝ) : Prop := ∀ t, w t = x t + k t * D w 1 t ∧ y t = (1 + k t) / 2 * (w t - D w 1 t)

section hip
variable {W : World ℝ Msg} {log : ℕ → List (Sent Msg)} {v : ℕ → ℕ → ℕ → ℝ} {a1 : ℚ} {c : Ctx} {M : Mach} {tab : ℕ → List ℚ}
  {es : ℕ → List Ev}

/-- **C75** `[hip~]`: w[n] = x[n] + k w[n-1], y[n] = (1 + k)/2 (w[n] - w[n-1]), where k is 1 - 2π f / sample rate restricted to 0...1,
and f the last number at the right inlet or the argument, but at least 1 -/
theorem hip_tilde (hn : W.num = firstNum) (hp : Named (Hip.special a1) "__rpole~f" (fun o _ => IsPole W o))
    (hd : Named (Hip.special a1) "__del1~f" (fun o _ => IsDelay W o)) (h : Solves W (Hip.patch a1) log v) (hc : 0 < c.sr)
    (hM : Lib.Hip.Code a1 c M) (hr : HipRuns a1 c M tab es log) (hes : ∀ t, ∀ e ∈ es t, Freqs e) :
    IsHip (fun t => ((Lib.Hip.coef c (lastFreq a1 (es t)) : ℚ) : ℝ)) (v Hip.in0 0) (v 18 0) (inSum v ((Hip.patch a1).ins Hip.out0 0)) := by
  intro t
  have hp := hp 18 [] (by simp [Hip.special])
  have hd := hd 7 [] (by simp [Hip.special])
  obtain ⟨s, hs, h0, h1⟩ := hr t
  obtain ⟨c0, c1⟩ := Lib.Hip.coefficients hc M hM tab (es t) (hes t) s hs
  have h2 := Hip.n2 h t
  have h10 := Hip.n10 h t
  rw [held_code hn h0 c0] at h2
  rw [held_code hn h1 c1] at h10
  have hb := pole_of hp h (by simp [Hip.patch, ofConns]) rfl (a := 16) (b := 10) (fun t => by simp [Hip.patch, ofConns, Hip.conns, Conn.into, inSum])
    (fun t => by simp [Hip.patch, ofConns, Hip.conns, Conn.into, inSum]) t
  have hd := delay_of hd h (by simp [Hip.patch, ofConns]) rfl (a := 18) (fun t => by simp [Hip.patch, ofConns, Hip.conns, Conn.into, inSum]) t
  have h8 := Hip.n8 h t
  rw [hd, Hip.n6 h] at h8
  have h9 := Hip.n9 h t
  rw [h8] at h9
  refine ⟨?_, ?_⟩
  · rw [hb, h10]; push_cast; ring
  · rw [Hip.o0, h2, h9]; push_cast; ring

/-- **C75** a high-pass filter with a steady frequency: its output is never more than 1 + k times its input -/
theorem hip_bounded {x w y : ℕ → ℝ} {κ : ℝ} (h : IsHip (fun _ => κ) x w y) (h0 : 0 ≤ κ) (h1 : κ ≤ 1) {B : ℝ} (hx : ∀ t, |x t| ≤ B) (t : ℕ) :
    |y t| ≤ (1 + κ) * B := by
  have hB : 0 ≤ B := (abs_nonneg _).trans (hx 0)
  have hw : ∀ t, (1 - κ) * |D w 1 t| ≤ B := by
    intro t
    induction t with
    | zero => simp [D, hB]
    | succ t ih =>
      have e : D w 1 (t + 1) = w t := by simp [D]
      rw [e, (h t).1]
      have := abs_add_le (x t) (κ * D w 1 t)
      rw [abs_mul, abs_of_nonneg h0] at this
      have := hx t
      have := abs_nonneg (D w 1 t)
      nlinarith
  obtain ⟨e1, e2⟩ := h t
  rw [e2, e1, abs_mul, abs_of_nonneg (by linarith : (0 : ℝ) ≤ (1 + κ) / 2)]
  have e3 : x t + κ * D w 1 t - D w 1 t = x t + -((1 - κ) * D w 1 t) := by ring
  rw [e3]
  have := abs_add_le (x t) (-((1 - κ) * D w 1 t))
  rw [abs_neg, abs_mul, abs_of_nonneg (by linarith : (0 : ℝ) ≤ 1 - κ)] at this
  have := hx t
  have := hw t
  nlinarith

/-- **C75** a high-pass filter removes constants: while the input and the frequency stay, the output falls by the factor k in every sample -/
theorem hip_settles {k x w y : ℕ → ℝ} (h : IsHip k x w y) {t0 : ℕ} {κ ξ : ℝ} (hk : ∀ t, t0 ≤ t → k t = κ) (hx : ∀ t, t0 ≤ t → x t = ξ) (n : ℕ) :
    y (t0 + 1 + n) = κ ^ n * y (t0 + 1) := by
  induction n with
  | zero => simp
  | succ n ih =>
    have e : ∀ m, D w 1 (m + 1) = w m := fun m => by simp [D]
    have a := h (t0 + 1 + (n + 1))
    have b := h (t0 + 1 + n)
    rw [hk _ (by omega), hx _ (by omega)] at a b
    rw [← Nat.add_assoc, e] at a
    rw [← Nat.add_assoc, pow_succ, mul_comm _ κ, mul_assoc, ← ih, a.2, b.2, a.1, b.1]
    ring

theorem hip_limit {k x w y : ℕ → ℝ} (h : IsHip k x w y) {t0 : ℕ} {κ ξ : ℝ} (h0 : 0 ≤ κ) (h1 : κ < 1) (hk : ∀ t, t0 ≤ t → k t = κ)
    (hx : ∀ t, t0 ≤ t → x t = ξ) : Filter.Tendsto y Filter.atTop (nhds 0) := by
  rw [← Filter.tendsto_add_atTop_iff_nat (t0 + 1)]
  have e : (fun n => y (n + (t0 + 1))) = fun n => κ ^ n * y (t0 + 1) := by
    funext n
    rw [Nat.add_comm, hip_settles h hk hx n]
  rw [e]
  simpa using (tendsto_pow_atTop_nhds_zero_of_lt_one h0 h1).mul_const (y (t0 + 1))

/-- the coefficient of `[hip~]` is always between 0 and 1, and below 1 -/
theorem hip_coef {c : Ctx} (hc : 0 < c.sr) (f : ℚ) : 0 ≤ Lib.Hip.coef c f ∧ Lib.Hip.coef c f < 1 := by
  refine ⟨Lib.clip01_nonneg _, ?_⟩
  unfold Lib.Hip.coef Lib.clip01
  refine max_lt (lt_of_le_of_lt (min_le_left _ _) ?_) (by norm_num)
  have : 0 < max f 1 * 6.28319 / c.sr := by have : (1 : ℚ) ≤ max f 1 := le_max_right _ _; positivity
  linarith

end hip
end Verif.Sig
