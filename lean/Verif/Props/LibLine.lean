import Verif.Lib.Line
import Verif.LibTime
import Verif.Props.LibMetro
/-!
C70: `[line]`.
-/
namespace Verif.Lib.Line
open Verif.Control (Dest Kind Cast Patch Act Sys Env Big)

/-! ## Specification -/

/-- a line generator: the value to come out next, what is added to it at every grain, where it goes, how much of the way is left (in
samples), the length of the next ramp (ms), the grain (ms), when the next value is due, and what has come out, and when -/
structure Ramp where
  next : ℚ
  slope : ℚ
  target : ℚ
  left : ℚ
  ramp : ℚ
  grain : ℚ
  due : Option Nat
  out : List (Nat × ℚ)

/-- one value: on the way the next one, at the end the target -/
def Ramp.beat (L : Ramp) (sr : ℚ) (t : Nat) : Ramp :=
  if 0 < L.left then
    { L with next := L.next + L.slope, left := L.left - L.grain * sr / 1000, due := some (t + Metro.samples sr L.grain),
             out := L.out ++ [(t, L.next)] }
  else
    { L with next := L.target, slope := 0, left := L.left - L.grain * sr / 1000, due := none, out := L.out ++ [(t, L.target)] }

/-- to `T` in `r` ms; the length of the ramp after it is 0 unless it is given -/
def Ramp.go (L : Ramp) (sr : ℚ) (t : Nat) (T r : ℚ) : Ramp :=
  { ({ L with target := T, left := r * sr / 1000, slope := (T - L.next) / (r / L.grain) } : Ramp).beat sr t with ramp := 0 }

/-- what it does: `T` or `T r` at the first inlet start a ramp, `set v` stops at `v` without output, `stop` stops; the second inlet
gets the length of the next ramp, the third the grain (20 ms if it is not positive) -/
def Ramp.on (sr : ℚ) (L : Ramp) : Ev → Ramp
  | .ext t 0 [.float T] => L.go sr t T L.ramp
  | .ext t 0 [.float T, .float r] => L.go sr t T r
  | .ext _ 0 [.sym x, .float v] => if x = "set" then { L with next := v, slope := 0, due := none } else L
  | .ext _ 0 [.sym x] => if x = "stop" then { L with due := none } else L
  | .ext _ 1 [.float r] => { L with ramp := r }
  | .ext _ 2 [.float g] => { L with grain := if g ≤ 0 then 20 else g }
  | .ext _ _ _ => L
  | .tick =>
    match L.due with
    | some t => L.beat sr t
    | none => L

/-- a line that has just been made -/
def Ramp.new (a1 a2 : ℚ) : Ramp := ⟨a1, 0, 0, 0, 0, if a2 = 0 then 20 else a2, none, []⟩

/-- messages for the three inlets -/
def Fits : Ev → Prop
  | .ext _ 0 [.float _] => True
  | .ext _ 0 [.float _, .float _] => True
  | .ext _ 0 [.sym x, .float _] => x = "set"
  | .ext _ 0 [.sym x] => x = "stop"
  | .ext _ 1 [.float _] => True
  | .ext _ 2 [.float _] => True
  | .ext _ _ _ => False
  | .tick => True

/-- the value `k` grains after the start of a ramp of `n` grains (not always a whole number) from `v` to `T` -/
def along (v T n : ℚ) (k : Nat) : ℚ := if (k : ℚ) < n then v + (T - v) * (k / n) else T

/-! ## Proofs -/

variable {a1 a2 : ℚ} {c : Ctx} {s s' : St}

/-- the state and the line -/
structure Mem (c : Ctx) (L : Ramp) (s : St) : Prop where
  next : s.mem 111 = [.float L.next]
  next' : s.mem 116 = [.float L.next]
  slope : s.mem 60 = [.float L.slope]
  slope' : s.mem 66 = [.float L.slope]
  target : s.mem 106 = [.float L.target]
  left : s.mem 43 = [.float L.left]
  ramp : s.mem 81 = [.float L.ramp]
  grain : s.mem 61 = [.float L.grain]
  samples : s.mem 47 = [.float (L.grain * c.sr / 1000)]
  rate : s.mem 9 = [.float c.sr]
  rate' : s.mem 40 = [.float c.sr]
  factor : s.mem 30 = [.float (c.sr / 1000)]
  period : ⌊num (s.mem 17)⌋.toNat = Metro.samples c.sr L.grain
  queue : s.q = L.due.toList.map fun t => ⟨t, 17, [.bang]⟩
  log : s.log = L.out.map fun x => (x.1, 0, [.float x.2])

theorem Mem.clear {L : Ramp} (h : Mem c L s) : s.q.filter (fun p => !decide (p.obj = 17)) = [] := by
  rw [h.queue]
  cases L.due <;> simp

@[simp] theorem ev_div {a b : ℚ} : Op.eval .div a b = a / b := by
  by_cases h : b = 0 <;> simp [Op.eval, h]
@[simp] theorem ev_mul {a b : ℚ} : Op.eval .mul a b = a * b := rfl
@[simp] theorem ev_add {a b : ℚ} : Op.eval .add a b = a + b := rfl
@[simp] theorem ev_sub {a b : ℚ} : Op.eval .sub a b = a - b := rfl
@[simp] theorem ev_max {a b : ℚ} : Op.eval .max a b = max a b := rfl
@[simp] theorem ev_le {a b : ℚ} : Op.eval .le a b = tf (a ≤ b) := rfl

theorem beat_run {L : Ramp} (h : Mem c { L with due := some (s.now + Metro.samples c.sr L.grain) } s) :
    ∃ s', Ends (sys a1 a2 c) [((13, 0), [.bang])] s s' ∧ Mem c (L.beat c.sr s.now) s' := by
  have hc := h.clear
  obtain ⟨k1,k2,k3,k4,k5,k6,k7,k8,k9,k10,k11,k12,k13,k14,k15⟩ := h
  by_cases hl : 0 < L.left
  · have hl' : ¬ L.left ≤ 0 := not_le.mpr hl
    refine ⟨?s1, ?h1, ?_⟩
    case h1 =>
      simp [lib_step, lib_line, tf, key, List.findIdx_cons, k1, k2, k3, k4, k5, k6, k9, hl']
      rfl
    simp only [Ramp.beat, hl, if_true]
    refine ⟨?_,?_,?_,?_,?_,?_,?_,?_,?_,?_,?_,?_,?_,?_,?_⟩ <;> simp [lib_step, *]
  · have hl' : L.left ≤ 0 := not_lt.mp hl
    refine ⟨?s2, ?h2, ?_⟩
    case h2 =>
      simp [lib_step, lib_line, tf, key, List.findIdx_cons, k1, k2, k3, k4, k5, k6, k9, hl']
      rfl
    simp only [Ramp.beat, hl, if_false]
    refine ⟨?_,?_,?_,?_,?_,?_,?_,?_,?_,?_,?_,?_,?_,?_,?_⟩ <;> simp [lib_step, hc, *]

theorem metro_run {l : Calls} : Ends (sys a1 a2 c) (((48, 0), [.bang]) :: l) s s' ↔
    Ends (sys a1 a2 c) (((13, 0), [.bang]) :: l) { s with
      q := insert ⟨s.now + ⌊num (s.mem 17)⌋.toNat, 17, [.bang]⟩ (s.q.filter fun p => !decide (p.obj = 17)) } s' := by
  have e : waiting 17 (s.q.filter fun p => !decide (p.obj = 17)) = [] := by
    simp [waiting]
  simp [lib_step, lib_line, -n13, List.findIdx_cons, key, e, maxMessages]

theorem reset_run : Ends (sys a1 a2 c) [((85, 0), [.bang])] s s' ↔ s' = s.set 81 [.float 0] := by
  simp [lib_step, lib_line]

theorem go_run {L : Ramp} {T r : ℚ} (h : Mem c { L with target := T, left := r * c.sr / 1000, slope := (T - L.next) / (r / L.grain) } s) :
    ∃ s', Ends (sys a1 a2 c) [((48, 0), [.bang]), ((85, 0), [.bang])] s s' ∧ Mem c (L.go c.sr s.now T r) s' := by
  have hc := h.clear
  obtain ⟨k1,k2,k3,k4,k5,k6,k7,k8,k9,k10,k11,k12,k13,k14,k15⟩ := h
  simp only [metro_run, hc, k13]
  obtain ⟨s1, h1, h2⟩ := beat_run (a1 := a1) (a2 := a2) (c := c)
    (L := { L with target := T, left := r * c.sr / 1000, slope := (T - L.next) / (r / L.grain) })
    (s := { s with q := insert ⟨s.now + Metro.samples c.sr L.grain, 17, [.bang]⟩ [] })
    ⟨k1,k2,k3,k4,k5,k6,k7,k8,k9,k10,k11,k12,k13,rfl,k15⟩
  refine ⟨s1.set 81 [.float 0], ?_, ?_⟩
  · rw [show ∀ a b : Dest × Msg, [a, b] = [a] ++ [b] from fun _ _ => rfl, ends_append]
    exact ⟨s1, h1, reset_run.mpr rfl⟩
  · obtain ⟨k1,k2,k3,k4,k5,k6,k7,k8,k9,k10,k11,k12,k13,k14,k15⟩ := h2
    simp only [Ramp.go]
    refine ⟨?_,?_,?_,?_,?_,?_,?_,?_,?_,?_,?_,?_,?_,?_,?_⟩ <;> simp [lib_step, *]

theorem start_run {L : Ramp} (h : Mem c L s) (T : ℚ) :
    ∃ s', Ends (sys a1 a2 c) [((0, 0), [.float T])] s s' ∧ Mem c (L.go c.sr s.now T L.ramp) s' := by
  obtain ⟨k1,k2,k3,k4,k5,k6,k7,k8,k9,k10,k11,k12,k13,k14,k15⟩ := h
  have e : waiting 17 (s.q.filter fun p => !decide (p.obj = 17)) = [] := by
    simp [waiting]
  have h1 : ∃ s1, (∀ s', Ends (sys a1 a2 c) [((48, 0), [.bang]), ((85, 0), [.bang])] s1 s' → Ends (sys a1 a2 c) [((0, 0), [.float T])] s s') ∧
      s1.now = s.now ∧ Mem c { L with target := T, left := L.ramp * c.sr / 1000, slope := (T - L.next) / (L.ramp / L.grain) } s1 := by
    refine ⟨((((s.set 43 [.float (L.ramp * c.sr / 1000)]).set 62 [.float (L.ramp / L.grain)]).set 106 [.float T]).set 66
      [.float ((T - L.next) / (L.ramp / L.grain))]).set 60 [.float ((T - L.next) / (L.ramp / L.grain))], ?_, ?_⟩
    · intro s' h
      simpa [lib_step, lib_line, key, List.findIdx_cons, k2, k7, k8, k10, e, maxMessages] using h
    refine ⟨rfl, ?_,?_,?_,?_,?_,?_,?_,?_,?_,?_,?_,?_,?_,?_,?_⟩ <;> simp [lib_step, *]
  obtain ⟨s1, h1, hn, h2⟩ := h1
  obtain ⟨s2, h3, h4⟩ := go_run (a1 := a1) (a2 := a2) h2
  rw [hn] at h4
  exact ⟨s2, h1 _ h3, h4⟩

theorem start2_run {L : Ramp} (h : Mem c L s) (T r : ℚ) :
    ∃ s', Ends (sys a1 a2 c) [((0, 0), [.float T, .float r])] s s' ∧ Mem c (L.go c.sr s.now T r) s' := by
  obtain ⟨k1,k2,k3,k4,k5,k6,k7,k8,k9,k10,k11,k12,k13,k14,k15⟩ := h
  have e : waiting 17 (s.q.filter fun p => !decide (p.obj = 17)) = [] := by
    simp [waiting]
  have h1 : ∃ s1, (∀ s', Ends (sys a1 a2 c) [((48, 0), [.bang]), ((85, 0), [.bang])] s1 s' → Ends (sys a1 a2 c) [((0, 0), [.float T, .float r])] s s') ∧
      s1.now = s.now ∧ Mem c { L with target := T, left := r * c.sr / 1000, slope := (T - L.next) / (r / L.grain) } s1 := by
    refine ⟨((((((s.set 43 [.float (L.ramp * c.sr / 1000)]).set 62 [.float (L.ramp / L.grain)]).set 43 [.float (r * c.sr / 1000)]).set 62
      [.float (r / L.grain)]).set 106 [.float T]).set 66
      [.float ((T - L.next) / (r / L.grain))]).set 60 [.float ((T - L.next) / (r / L.grain))], ?_, ?_⟩
    · intro s' h
      simpa [lib_step, lib_line, key, List.findIdx_cons, k2, k7, k8, k10, e, maxMessages] using h
    refine ⟨rfl, ?_,?_,?_,?_,?_,?_,?_,?_,?_,?_,?_,?_,?_,?_,?_⟩ <;> simp [lib_step, *]
  obtain ⟨s1, h1, hn, h2⟩ := h1
  obtain ⟨s2, h3, h4⟩ := go_run (a1 := a1) (a2 := a2) h2
  rw [hn] at h4
  exact ⟨s2, h1 _ h3, h4⟩

theorem set_run {L : Ramp} (h : Mem c L s) (v : ℚ) :
    ∃ s', Ends (sys a1 a2 c) [((0, 0), [.sym "set", .float v])] s s' ∧ Mem c { L with next := v, slope := 0, due := none } s' := by
  have hc := h.clear
  obtain ⟨k1,k2,k3,k4,k5,k6,k7,k8,k9,k10,k11,k12,k13,k14,k15⟩ := h
  refine ⟨?s1, ?h1, ?_⟩
  case h1 =>
    simp [lib_step, lib_line, tf, key, List.findIdx_cons, k1, k2, k3, k4, k5, k6, k7, k8, k9, k10, k11, hc]
    rfl
  refine ⟨?_,?_,?_,?_,?_,?_,?_,?_,?_,?_,?_,?_,?_,?_,?_⟩ <;> simp [lib_step, *]

theorem stop_run {L : Ramp} (h : Mem c L s) :
    ∃ s', Ends (sys a1 a2 c) [((0, 0), [.sym "stop"])] s s' ∧ Mem c { L with due := none } s' := by
  have hc := h.clear
  obtain ⟨k1,k2,k3,k4,k5,k6,k7,k8,k9,k10,k11,k12,k13,k14,k15⟩ := h
  refine ⟨?s1, ?h1, ?_⟩
  case h1 =>
    simp [lib_step, lib_line, tf, key, List.findIdx_cons, k1, k2, k3, k4, k5, k6, k7, k8, k9, k10, k11, hc]
    rfl
  refine ⟨?_,?_,?_,?_,?_,?_,?_,?_,?_,?_,?_,?_,?_,?_,?_⟩ <;> simp [lib_step, *]

theorem ramp_run {L : Ramp} (h : Mem c L s) (r : ℚ) :
    ∃ s', Ends (sys a1 a2 c) [((0, 1), [.float r])] s s' ∧ Mem c { L with ramp := r } s' := by
  obtain ⟨k1,k2,k3,k4,k5,k6,k7,k8,k9,k10,k11,k12,k13,k14,k15⟩ := h
  refine ⟨?s1, ?h1, ?_⟩
  case h1 =>
    simp [lib_step, lib_line]
    rfl
  refine ⟨?_,?_,?_,?_,?_,?_,?_,?_,?_,?_,?_,?_,?_,?_,?_⟩ <;> simp [lib_step, *]

theorem grain_run {L : Ramp} (h : Mem c L s) (g : ℚ) :
    ∃ s', Ends (sys a1 a2 c) [((0, 2), [.float g])] s s' ∧ Mem c { L with grain := if g ≤ 0 then 20 else g } s' := by
  obtain ⟨k1,k2,k3,k4,k5,k6,k7,k8,k9,k10,k11,k12,k13,k14,k15⟩ := h
  have e : ∀ g, ⌊max (g * (c.sr / 1000)) 1⌋.toNat = Metro.samples c.sr g := by
    intro g
    rw [← Metro.samples_floor, Int.floor_intCast, max_eq_right (le_trans zero_le_one (le_max_right _ 1))]
  by_cases hg : g ≤ 0
  · have hm : max g 0 = 0 := max_eq_right hg
    refine ⟨?s1, ?h1, ?_⟩
    case h1 =>
      simp [lib_step, lib_line, tf, key, List.findIdx_cons, hm, k11, k12]
      rfl
    refine ⟨?_,?_,?_,?_,?_,?_,?_,?_,?_,?_,?_,?_,?_,?_,?_⟩ <;> simp [lib_step, hg, *]
  · have hm : max g 0 = g := max_eq_left (le_of_lt (not_le.mp hg))
    have hz : ¬ (0:ℚ) = g := fun e => hg (le_of_eq e.symm)
    refine ⟨?s2, ?h2, ?_⟩
    case h2 =>
      simp [lib_step, lib_line, tf, key, List.findIdx_cons, hm, hz, k11, k12]
      rfl
    refine ⟨?_,?_,?_,?_,?_,?_,?_,?_,?_,?_,?_,?_,?_,?_,?_⟩ <;> simp [lib_step, hg, *]

theorem tick_run {L : Ramp} (h : Mem c { L with due := none } s) :
    ∃ s', Ends (sys a1 a2 c) [((16, 0), [.bang])] s s' ∧ Mem c (L.beat c.sr s.now) s' := by
  obtain ⟨k1,k2,k3,k4,k5,k6,k7,k8,k9,k10,k11,k12,k13,k14,k15⟩ := h
  obtain ⟨s1, h1, h2⟩ := beat_run (a1 := a1) (a2 := a2) (c := c) (L := L)
    (s := { s with q := insert ⟨s.now + Metro.samples c.sr L.grain, 17, [.bang]⟩ [] })
    ⟨k1,k2,k3,k4,k5,k6,k7,k8,k9,k10,k11,k12,k13,rfl,k15⟩
  refine ⟨s1, ?_, h2⟩
  have e : s.q = [] := k14
  simpa [lib_step, lib_line, List.findIdx_cons, key, e, maxMessages, waiting, k13] using h1

theorem boot_run (tab : Nat → List ℚ) : ∃ s', Ends (sys a1 a2 c) [((39, 0), [.bang]), ((132, 0), [.bang])] (start c (nodes a1 a2) tab) s' ∧
    Mem c (.new a1 a2) s' := by
  have e : ∀ g, ⌊max (g * (c.sr / 1000)) 1⌋.toNat = Metro.samples c.sr g := by
    intro g
    rw [← Metro.samples_floor, Int.floor_intCast, max_eq_right (le_trans zero_le_one (le_max_right _ 1))]
  generalize hs : start c (nodes a1 a2) tab = s
  have k111 : s.mem 111 = [.float a1] := by rw [← hs]; rfl
  have k101 : s.mem 101 = [.float a1] := by rw [← hs]; rfl
  have k60 : s.mem 60 = [.float 0] := by rw [← hs]; rfl
  have k66 : s.mem 66 = [.float 0] := by rw [← hs]; rfl
  have k106 : s.mem 106 = [.float 0] := by rw [← hs]; rfl
  have k43 : s.mem 43 = [.float 0] := by rw [← hs]; rfl
  have k81 : s.mem 81 = [.float 0] := by rw [← hs]; rfl
  have k32 : s.mem 32 = [.float 20] := by rw [← hs]; rfl
  have k87 : s.mem 87 = [.float a2] := by rw [← hs]; rfl
  have kq : s.q = [] := by rw [← hs]; rfl
  have kl : s.log = [] := by rw [← hs]; rfl
  clear hs
  by_cases h2 : a2 = 0
  · refine ⟨?s1, ?h1, ?_⟩
    case h1 =>
      simp [lib_step, lib_line, key, List.findIdx_cons, k111, k101, k32, k87, h2]
      rfl
    refine ⟨?_,?_,?_,?_,?_,?_,?_,?_,?_,?_,?_,?_,?_,?_,?_⟩ <;> simp [lib_step, Ramp.new, *]
  · have h2' : ¬ 0 = a2 := fun e => h2 e.symm
    refine ⟨?s2, ?h2, ?_⟩
    case h2 =>
      simp [lib_step, lib_line, key, List.findIdx_cons, k111, k101, k32, k87, h2']
      rfl
    refine ⟨?_,?_,?_,?_,?_,?_,?_,?_,?_,?_,?_,?_,?_,?_,?_⟩ <;> simp [lib_step, Ramp.new, *]

theorem Mem.at {L : Ramp} (h : Mem c L s) (t : Nat) : Mem c L { s with now := t } := ⟨h.1, h.2, h.3, h.4, h.5, h.6, h.7, h.8, h.9, h.10, h.11, h.12, h.13, h.14, h.15⟩

theorem Mem.step {L : Ramp} {e : Ev} (h : Mem c L s) (hf : Fits e) (hc : Can s e) :
    ∃ s', Happens (mach a1 a2 c) drv e s s' ∧ Mem c (L.on c.sr e) s' := by
  cases e with
  | ext t i m =>
    have h := h.at t
    match i, m, hf with
    | 0, [.float T], _ =>
      obtain ⟨s', h1, h2⟩ := start_run (a1 := a1) (a2 := a2) h T
      exact ⟨s', happens_ext.mpr ⟨hc.1, hc.2, h1⟩, h2⟩
    | 0, [.float T, .float r], _ =>
      obtain ⟨s', h1, h2⟩ := start2_run (a1 := a1) (a2 := a2) h T r
      exact ⟨s', happens_ext.mpr ⟨hc.1, hc.2, h1⟩, h2⟩
    | 0, [.sym x, .float v], hx =>
      obtain rfl : x = "set" := hx
      obtain ⟨s', h1, h2⟩ := set_run (a1 := a1) (a2 := a2) h v
      exact ⟨s', happens_ext.mpr ⟨hc.1, hc.2, h1⟩, h2⟩
    | 0, [.sym x], hx =>
      obtain rfl : x = "stop" := hx
      obtain ⟨s', h1, h2⟩ := stop_run (a1 := a1) (a2 := a2) h
      exact ⟨s', happens_ext.mpr ⟨hc.1, hc.2, h1⟩, h2⟩
    | 1, [.float r], _ =>
      obtain ⟨s', h1, h2⟩ := ramp_run (a1 := a1) (a2 := a2) h r
      exact ⟨s', happens_ext.mpr ⟨hc.1, hc.2, h1⟩, h2⟩
    | 2, [.float g], _ =>
      obtain ⟨s', h1, h2⟩ := grain_run (a1 := a1) (a2 := a2) h g
      exact ⟨s', happens_ext.mpr ⟨hc.1, hc.2, h1⟩, h2⟩
  | tick =>
    have hq := h.queue
    cases hn : L.due with
    | none => rw [hn] at hq; exact absurd hq hc
    | some t =>
      rw [hn] at hq
      obtain ⟨s', h1, h2⟩ := tick_run (a1 := a1) (a2 := a2) (c := c) (L := L) (s := { s with now := t, q := [] })
        ⟨h.1, h.2, h.3, h.4, h.5, h.6, h.7, h.8, h.9, h.10, h.11, h.12, h.13, rfl, h.15⟩
      refine ⟨s', happens_tick.mpr ⟨_, _, hq, h1⟩, ?_⟩
      simp only [Ramp.on, hn]
      exact h2

theorem Fits.inlet {e : Ev} (h : Fits e) : Inlet e := by
  unfold Fits at h
  split at h <;> simp_all [Inlet]

theorem sim (tab : Nat → List ℚ) : Simulates (mach a1 a2 c) drv (start c (nodes a1 a2) tab) Fits (Ramp.on c.sr) (.new a1 a2) (Mem c) where
  boot := by
    obtain ⟨s, h1, h2⟩ := boot_run (a1 := a1) (a2 := a2) (c := c) tab
    have h1 : Ends (sys a1 a2 c) [((39, 0), [.bang]), ((132, 0), [.bang])] (start c (nodes a1 a2) tab) s := h1
    exact ⟨s, h1, h2⟩
  step := Mem.step

/-- **C70**: the generated code of `[line a1 a2]` does what the line generator does: whatever is sent to it and whenever, what comes out
of it, and when, is the same, and the message queue has one message if a value is due, at that time, and none otherwise.

The messages are those listed in `Fits`; the period is in whole samples. -/
theorem line_partial (M : Mach) (hM : Code a1 a2 c M) (tab : Nat → List ℚ) (es : List Ev) (hf : ∀ e ∈ es, Fits e) (s : St)
    (h : Runs M drv (start c (nodes a1 a2) tab) es s) :
    let L := es.foldl (Ramp.on c.sr) (.new a1 a2)
    s.log = L.out.map (fun x => (x.1, 0, [.float x.2])) ∧ s.q.map (·.time) = L.due.toList := by
  have := ((to_code hM (fun _ => Fits.inlet) (sim tab)).runs hf h).1
  refine ⟨this.log, ?_⟩
  rw [this.queue]
  cases (es.foldl (Ramp.on c.sr) (.new a1 a2)).due <;> rfl

/-- **C70**: it never gets stuck: the program starts, and whatever can happen is dealt with -/
theorem line_goes_on (M : Mach) (hM : Code a1 a2 c M) (tab : Nat → List ℚ) :
    (∃ s, Runs M drv (start c (nodes a1 a2) tab) [] s) ∧
    ∀ (es : List Ev) (_ : ∀ e ∈ es, Fits e) (s : St) (_ : Runs M drv (start c (nodes a1 a2) tab) es s) (e : Ev),
      Fits e → Can s e → ∃ s', Happens M drv e s s' :=
  (to_code hM (fun _ => Fits.inlet) (sim tab)).goes_on

theorem left_pos (sr r g : ℚ) (hs : 0 < sr) (hg : 0 < g) (k : Nat) : 0 < r * sr / 1000 - k * (g * sr / 1000) ↔ (k : ℚ) < r / g := by
  rw [lt_div_iff₀ hg, show r * sr / 1000 - k * (g * sr / 1000) = (r - k * g) * (sr / 1000) by ring,
    mul_pos_iff_of_pos_right (by positivity), sub_pos]

/-- under way: the state after the beat number `k` of a ramp -/
structure Under (sr v T r g : ℚ) (t : Nat) (old : List (Nat × ℚ)) (k : Nat) (L : Ramp) : Prop where
  next : L.next = if (k : ℚ) < r / g then v + (T - v) / (r / g) * (k + 1 : Nat) else T
  slope : L.slope = if (k : ℚ) < r / g then (T - v) / (r / g) else 0
  target : L.target = T
  left : L.left = r * sr / 1000 - (k + 1 : Nat) * (g * sr / 1000)
  ramp : L.ramp = 0
  grain : L.grain = g
  due : L.due = if (k : ℚ) < r / g then some (t + (k + 1) * Metro.samples sr g) else none
  out : L.out = old ++ (List.range (k + 1)).map fun i => (t + i * Metro.samples sr g, along v T (r / g) i)

theorem go_under {sr : ℚ} (hs : 0 < sr) {L : Ramp} {t : Nat} {T r : ℚ} (hg : 0 < L.grain) :
    Under sr L.next T r L.grain t L.out 0 (L.go sr t T r) := by
  have h0 := left_pos sr r L.grain hs hg 0
  simp only [Nat.cast_zero, zero_mul, sub_zero] at h0
  unfold Ramp.go Ramp.beat
  by_cases h : 0 < r / L.grain
  · simp only [h0.mpr h, if_true]
    constructor <;> simp [h, along]
  · simp only [h0.not.mpr h, if_false]
    constructor <;> simp [h, along]

theorem Under.tick {sr v T r g : ℚ} {t : Nat} {old : List (Nat × ℚ)} {k : Nat} {L : Ramp} (hs : 0 < sr) (hg : 0 < g)
    (h : Under sr v T r g t old k L) (hk : (k : ℚ) < r / g) : Under sr v T r g t old (k + 1) (L.on sr .tick) := by
  obtain ⟨h1, h2, h3, h4, h5, h6, h7, h8⟩ := h
  simp only [hk, if_true] at h1 h2 h7
  have h0 := left_pos sr r g hs hg (k + 1)
  simp only [Ramp.on, h7, Ramp.beat, h4, h6]
  have hn : r / g ≠ 0 := fun e => by
    rw [e] at hk
    exact absurd hk (not_lt.mpr (Nat.cast_nonneg k))
  by_cases h : ((k + 1 : Nat) : ℚ) < r / g
  · simp only [h0.mpr h, if_true]
    constructor <;> simp only [h, if_true]
    · rw [h1, h2]; push_cast; ring
    · exact h2
    · exact h3
    · push_cast; ring
    · exact h5
    · congr 1; ring
    · rw [h8, h1, List.range_succ (n := k + 1), List.map_append, ← List.append_assoc]
      congr 1
      simp only [List.map_cons, List.map_nil, along, h, if_true, List.cons.injEq, Prod.mk.injEq, true_and, and_true]
      ring
  · simp only [h0.not.mpr h, if_false]
    constructor <;> simp only [h, if_false]
    · exact h3
    · exact h3
    · push_cast; ring
    · exact h5
    · rw [h8, h3, List.range_succ (n := k + 1), List.map_append, ← List.append_assoc]
      congr 1
      simp only [List.map_cons, List.map_nil, along, h, if_false]

theorem under {sr : ℚ} (hs : 0 < sr) {L : Ramp} {t : Nat} {T r : ℚ} (hg : 0 < L.grain) (k : Nat) (hk : k ≤ ⌈r / L.grain⌉.toNat) :
    Under sr L.next T r L.grain t L.out k ((List.replicate k Ev.tick).foldl (Ramp.on sr) (L.go sr t T r)) := by
  induction k with
  | zero => exact go_under hs hg
  | succ k ih =>
    rw [List.replicate_succ', List.foldl_append]
    refine (ih (by omega)).tick hs hg ?_
    have : (k : Int) < ⌈r / L.grain⌉ := by omega
    exact_mod_cast Int.lt_ceil.mp this

/-- **C70**: a ramp.  Whatever has been sent before: when the message `[T r(` comes at the time `t` and nothing else after it, then `k`
grains later the values that have come out since are those on the straight line from `v` to `T` that is `r` ms long, one per grain,
and then `T`, which is reached at the first grain that is not before the end; nothing is pending then.  `v` is what the line would have
put out next. -/
theorem line_ramp (M : Mach) (hM : Code a1 a2 c M) (hs : 0 < c.sr) (tab : Nat → List ℚ) (es : List Ev) (hf : ∀ e ∈ es, Fits e) (t k : Nat)
    (T r : ℚ) (s : St) :
    let L := es.foldl (Ramp.on c.sr) (.new a1 a2)
    0 < L.grain → k ≤ ⌈r / L.grain⌉.toNat →
    Runs M drv (start c (nodes a1 a2) tab) (es ++ .ext t 0 [.float T, .float r] :: List.replicate k .tick) s →
    s.log = L.out.map (fun x => (x.1, 0, [.float x.2])) ++
      (List.range (k + 1)).map (fun i => (t + i * Metro.samples c.sr L.grain, 0, [.float (along L.next T (r / L.grain) i)])) ∧
    s.q.map (·.time) = if k = ⌈r / L.grain⌉.toNat then [] else [t + (k + 1) * Metro.samples c.sr L.grain] := by
  intro L hg hk h
  have := line_partial M hM tab _ (fun e he => by
    rcases List.mem_append.mp he with he | he
    · exact hf e he
    rcases List.mem_cons.mp he with rfl | he
    · trivial
    · rw [(List.mem_replicate.mp he).2]; trivial) s h
  rw [List.foldl_append, List.foldl_cons] at this
  have hu := under hs (L := L) (t := t) (T := T) hg k hk
  simp only [Ramp.on] at this
  rw [hu.out, hu.due] at this
  refine ⟨?_, ?_⟩
  · rw [this.1, List.map_append, List.map_map]
    rfl
  · rw [this.2]
    by_cases hk' : k = ⌈r / L.grain⌉.toNat
    · rw [if_pos hk', if_neg]
      · rfl
      · have : ⌈r / L.grain⌉ ≤ (k : Int) := by omega
        have := Int.ceil_le.mp this
        push_cast at this
        exact not_lt.mpr this
    · rw [if_neg hk', if_pos]
      · rfl
      · have : (k : Int) < ⌈r / L.grain⌉ := by omega
        exact_mod_cast Int.lt_ceil.mp this

/-- such histories exist: whenever the message can come, and any number of grains after it -/
theorem line_ramp_exists (M : Mach) (hM : Code a1 a2 c M) (hs : 0 < c.sr) (tab : Nat → List ℚ) (es : List Ev) (hf : ∀ e ∈ es, Fits e)
    (s0 : St) (h0 : Runs M drv (start c (nodes a1 a2) tab) es s0) (t k : Nat) (T r : ℚ) (hc : Can s0 (.ext t 0 [.float T, .float r]))
    (hg : 0 < (es.foldl (Ramp.on c.sr) (.new a1 a2)).grain) (hk : k ≤ ⌈r / (es.foldl (Ramp.on c.sr) (.new a1 a2)).grain⌉.toNat) :
    ∃ s, Runs M drv (start c (nodes a1 a2) tab) (es ++ .ext t 0 [.float T, .float r] :: List.replicate k .tick) s := by
  obtain ⟨-, hgo⟩ := line_goes_on M hM tab
  induction k with
  | zero =>
    obtain ⟨s', h1⟩ := hgo es hf s0 h0 (.ext t 0 [.float T, .float r]) trivial hc
    exact ⟨s', h0.snoc h1⟩
  | succ k ih =>
    obtain ⟨s, h⟩ := ih (by omega)
    have hq := (line_ramp M hM hs tab es hf t k T r s hg (by omega) h).2
    rw [if_neg (by omega)] at hq
    obtain ⟨s', h1⟩ := hgo _ (fun e he => by
      rcases List.mem_append.mp he with he | he
      · exact hf e he
      rcases List.mem_cons.mp he with rfl | he
      · trivial
      · rw [(List.mem_replicate.mp he).2]; trivial) s h .tick trivial (fun e => by rw [e] at hq; simp at hq)
    have := h.snoc h1
    rw [List.append_assoc, List.cons_append, ← List.replicate_succ'] at this
    exact ⟨s', this⟩

/-- **C70**: the grain is positive unless the second argument is negative and no other grain has been sent -/
theorem grain_pos {sr : ℚ} (h : 0 ≤ a2) (es : List Ev) : 0 < (es.foldl (Ramp.on sr) (.new a1 a2)).grain := by
  have hb : ∀ (L : Ramp) t, (L.beat sr t).grain = L.grain := fun L t => by
    unfold Ramp.beat; split <;> rfl
  have hgo : ∀ (L : Ramp) t T r, (L.go sr t T r).grain = L.grain := fun L t T r => hb _ _
  have hn : 0 < (Ramp.new a1 a2).grain := by
    by_cases h2 : a2 = 0
    · simp [Ramp.new, h2]
    · simp only [Ramp.new, h2, if_false]
      exact lt_of_le_of_ne h (Ne.symm h2)
  generalize Ramp.new a1 a2 = L at hn
  induction es generalizing L with
  | nil => exact hn
  | cons e es ih =>
    refine ih _ ?_
    unfold Ramp.on
    split
    · rw [hgo]; exact hn
    · rw [hgo]; exact hn
    · split <;> exact hn
    · split <;> exact hn
    · exact hn
    · rename_i g
      show 0 < if g ≤ 0 then (20 : ℚ) else g
      split
      · norm_num
      · rename_i h; exact not_le.mp h
    · exact hn
    · split
      · rw [hb]; exact hn
      · exact hn

/-- 44100 Hz -/
abbrev ctx : Ctx := ⟨44100, fun _ => none, fun _ _ => 0, fun _ _ => 0, 1⟩

/-- **C70** (F86): a ramp of 50 ms with a grain of 20 ms arrives after 60 ms: `[100 50(` at the time 100 -/
theorem line_late (M : Mach) (hM : Code 0 20 ctx M) (tab : Nat → List ℚ) :
    ∃ s, Runs M drv (start ctx (nodes 0 20) tab) [.ext 100 0 [.float 100, .float 50], .tick, .tick, .tick] s ∧
      s.q = [] ∧ s.log = [(100, 0, [.float 0]), (982, 0, [.float 40]), (1864, 0, [.float 80]), (2746, 0, [.float 100])] := by
  have hs : 0 < ctx.sr := by norm_num
  have hn : ([].foldl (Ramp.on ctx.sr) (.new 0 20) : Ramp).grain = 20 := by simp [Ramp.new]
  have hc : ⌈(50 : ℚ) / 20⌉.toNat = 3 := by
    have : ⌈(50 : ℚ) / 20⌉ = 3 := by
      rw [Int.ceil_eq_iff]; constructor <;> norm_num
    rw [this]; rfl
  have hp : Metro.samples 44100 20 = 882 := by
    have h : ⌊(20 * 44100 / 1000 : ℚ)⌋ = 882 := by
      rw [Int.floor_eq_iff]; constructor <;> norm_num
    rw [Metro.samples, h]; rfl
  obtain ⟨⟨s0, h0⟩, -⟩ := line_goes_on M hM tab
  have hm := ((to_code hM (fun _ => Fits.inlet) (sim tab)).runs (by simp) h0).1
  have hq : s0.q = [] := hm.queue
  have hnow : s0.now = 0 := runs_now_zero (checked 0 20) (classes 0 20) hM h0
  obtain ⟨s, h⟩ := line_ramp_exists M hM hs tab [] (by simp) s0 h0 100 3 100 50 ⟨by omega, by simp [hq]⟩ (by rw [hn]; norm_num)
    (by rw [hn, hc])
  have := line_ramp M hM hs tab [] (by simp) 100 3 100 50 s (by rw [hn]; norm_num) (by rw [hn, hc]) h
  rw [hn, hc] at this
  refine ⟨s, h, ?_, ?_⟩
  · simpa using this.2
  · rw [this.1, hp]
    simp [List.range_succ, Ramp.new, along]
    norm_num

/-- **C70** (F87): on its way from 0 to 100 the line has put out 80 when, one grain before the end, it is told to go back to 0: it
goes on at 120 -/
theorem line_overshoot (M : Mach) (hM : Code 0 20 ctx M) (tab : Nat → List ℚ) :
    ∃ s, Runs M drv (start ctx (nodes 0 20) tab) [.ext 0 0 [.float 100, .float 50], .tick, .tick, .ext 2000 0 [.float 0, .float 1000]] s ∧
      s.log = [(0, 0, [.float 0]), (882, 0, [.float 40]), (1764, 0, [.float 80]), (2000, 0, [.float 120])] := by
  have hfit : ∀ e ∈ ([.ext 0 0 [.float 100, .float 50], .tick, .tick] : List Ev), Fits e := by
    intro e he
    simp only [List.mem_cons, List.not_mem_nil, or_false] at he
    rcases he with rfl | rfl | rfl <;> trivial
  obtain ⟨⟨s0, h0⟩, hgo⟩ := line_goes_on M hM tab
  have hq0 : s0.q.map (·.time) = _ := (line_partial M hM tab [] (by simp) s0 h0).2
  have hnow : s0.now = 0 := runs_now_zero (checked 0 20) (classes 0 20) hM h0
  have e0 : s0.q = [] := by simpa [Ramp.new] using hq0
  obtain ⟨s1, h1⟩ := hgo [] (by simp) s0 h0 (.ext 0 0 [.float 100, .float 50]) trivial ⟨by omega, by simp [e0]⟩
  have h1 := h0.snoc h1
  have f1 : ∀ e ∈ [] ++ ([.ext 0 0 [.float 100, .float 50]] : List Ev), Fits e := fun e he => hfit e (by simp at he; simp [he])
  have hq1 : s1.q.map (·.time) = [882] := (line_partial M hM tab _ f1 s1 h1).2.trans (by decide +kernel)
  obtain ⟨s2, h2⟩ := hgo _ f1 s1 h1 .tick trivial (fun e => by rw [e] at hq1; simp at hq1)
  have h2 := h1.snoc h2
  have f2 : ∀ e ∈ ([] ++ [.ext 0 0 [.float 100, .float 50]]) ++ ([.tick] : List Ev), Fits e :=
    fun e he => hfit e (by simp at he; rcases he with he | he <;> simp [he])
  have hq2 : s2.q.map (·.time) = [1764] := (line_partial M hM tab _ f2 s2 h2).2.trans (by decide +kernel)
  obtain ⟨s3, h3⟩ := hgo _ f2 s2 h2 .tick trivial (fun e => by rw [e] at hq2; simp at hq2)
  have h3 := h2.snoc h3
  have hq3 : s3.q.map (·.time) = [2646] := (line_partial M hM tab _ hfit s3 h3).2.trans (by decide +kernel)
  obtain ⟨s2', g1, -, g3⟩ := runs_now (checked 0 20) (classes 0 20) hM (fun x hx => driven 0 20 (hfit x hx).inlet) h3
  have hq2' : s2'.q.map (·.time) = [1764] := (line_partial M hM tab _ f2 s2' g1).2.trans (by decide +kernel)
  have hn3 : s3.now = 1764 := by
    rw [g3, Ev.time, ← List.head?_map, hq2']
    rfl
  obtain ⟨s4, h4⟩ := hgo _ hfit s3 h3 (.ext 2000 0 [.float 0, .float 1000]) trivial ⟨by omega, by
    intro p hp
    have : p.time ∈ s3.q.map (·.time) := List.mem_map_of_mem (List.mem_of_mem_head? hp)
    rw [hq3] at this
    simp only [List.mem_singleton] at this
    omega⟩
  have h4 := h3.snoc h4
  refine ⟨s4, h4, ?_⟩
  rw [(line_partial M hM tab _ (fun e he => by
    rcases List.mem_append.mp he with he | he
    · exact hfit e he
    · rw [List.mem_singleton.mp he]; trivial) s4 h4).1]
  decide +kernel

/-- **C70** (F88): with a negative grain as the argument a ramp never ends: the values go on and on, one per sample -/
theorem line_negative_grain (hs : 0 < c.sr) (h2 : a2 < 0) (t k : Nat) (T r : ℚ) (hr : 0 < r) :
    let L := (List.replicate k Ev.tick).foldl (Ramp.on c.sr) ((Ramp.new a1 a2).go c.sr t T r)
    L.due = some (t + (k + 1)) ∧ L.out.length = k + 1 := by
  have hp : Metro.samples c.sr a2 = 1 := by
    have : ⌊a2 * c.sr / 1000⌋ < 0 := Int.floor_lt_zero.mpr (by
      have := mul_neg_of_neg_of_pos h2 hs
      linarith)
    simp only [Metro.samples]
    omega
  have key : ∀ L : Ramp, L.grain = a2 → 0 < L.left → ∀ t, (L.beat c.sr t).due = some (t + 1) ∧ (L.beat c.sr t).grain = a2 ∧
      0 < (L.beat c.sr t).left ∧ (L.beat c.sr t).out.length = L.out.length + 1 := by
    intro L hg hl t
    simp only [Ramp.beat, hl, if_true, hg, hp]
    refine ⟨trivial, trivial, ?_, by simp⟩
    have := mul_neg_of_neg_of_pos h2 hs
    linarith
  suffices h : ∀ k, let L := (List.replicate k Ev.tick).foldl (Ramp.on c.sr) ((Ramp.new a1 a2).go c.sr t T r)
      L.due = some (t + (k + 1)) ∧ L.grain = a2 ∧ 0 < L.left ∧ L.out.length = k + 1 from ⟨(h k).1, (h k).2.2.2⟩
  intro k
  induction k with
  | zero =>
    have hn : (Ramp.new a1 a2).grain = a2 := by simp [Ramp.new, ne_of_lt h2]
    have := key { Ramp.new a1 a2 with target := T, left := r * c.sr / 1000, slope := (T - a1) / (r / (Ramp.new a1 a2).grain) }
      hn (by show 0 < r * c.sr / 1000; positivity) t
    exact ⟨this.1, this.2.1, this.2.2.1, this.2.2.2⟩
  | succ k ih =>
    simp only [List.replicate_succ', List.foldl_append, List.foldl_cons, List.foldl_nil] at ih ⊢
    obtain ⟨i1, i2, i3, i4⟩ := ih
    simp only [Ramp.on, i1]
    have := key _ i2 i3 (t + (k + 1))
    exact ⟨this.1, this.2.1, this.2.2.1, by rw [this.2.2.2, i4]⟩

end Verif.Lib.Line
