import Verif.Lib.Timer
import Verif.Lib.Change
import Verif.Lib.Stripnote
import Verif.Lib.Swap
import Verif.Lib.Spigot
import Verif.Lib.Moses
import Verif.Lib.Int
import Mathlib.Data.List.Destutter
/-!
C69: `[timer]`, `[change]`, `[stripnote]`, `[swap]`, `[spigot]`, `[moses]`, `[int]`.
-/
namespace Verif.Lib
open Verif.Control (Dest Kind Cast Patch Act Sys Env Big)

/-- a number as a message -/
abbrev num1 (q : ℚ) : Msg := [.float q]

/-! ## `[spigot]` -/

namespace Spigot

/-- messages pass unchanged while the last number at the right inlet is not 0 -/
def spec (a1 : ℚ) : Reacts ℚ where
  init := a1
  on g _ i m :=
    match i, m with
    | 0, m => (g, if g = 0 then [] else [(0, m)])
    | 1, .float q :: _ => (q, [])
    | _, _ => (g, [])

variable {a1 : ℚ} {c : Ctx} {s s' : St}

theorem run0 {m : Msg} : Ends (sys a1 c) [((0, 0), m)] s s' ↔
    s' = if num (s.mem 4) = 0 then s else { s with log := s.log ++ [(s.now, 0, m)] } := by
  by_cases h : num (s.mem 4) = 0 <;> simp [lib_step, lib_spigot, h]

theorem run1 {m : Msg} : Ends (sys a1 c) [((0, 1), m)] s s' ↔ s' = (step c (.ite a1) 4 1 m s).1 := by
  match m with
  | [] => simp [lib_step, lib_spigot, step, iteStep]
  | .bang :: _ => simp [lib_step, lib_spigot, step, iteStep]
  | .sym _ :: _ => simp [lib_step, lib_spigot, step, iteStep]
  | .float q :: m' => simp [lib_step, lib_spigot]

/-- **C69**: the generated code of `[spigot a1]`, for all messages -/
theorem spigot_does (M : Mach) (hM : Code a1 c M) (tab : Nat → List ℚ) :
    Does M drv (start c (nodes a1) tab) Inlet (spec a1) := by
  refine does_of_simulates (to_code hM (fun _ h => h) (simulates_of_reacts (R := fun g s => num (s.mem 4) = g) ?_ ?_))
    fun x s h => ⟨h.1.q, h.1.log⟩
  · have hb : Ends (sys a1 c) [] (start c (nodes a1) tab) _ := ends_nil.mpr rfl
    exact ⟨_, hb, rfl, rfl, rfl⟩
  · intro g s t i m hr hq hf
    match i, hf with
    | 0, _ =>
      refine ⟨_, run0.mpr rfl, ?_⟩
      by_cases h : g = 0 <;> simp [spec, h, hr, hq]
    | 1, _ =>
      refine ⟨_, run1.mpr rfl, ?_⟩
      match m with
      | [] => exact ⟨hr, hq, (List.append_nil _).symm⟩
      | .bang :: _ => exact ⟨hr, hq, (List.append_nil _).symm⟩
      | .sym _ :: _ => exact ⟨hr, hq, (List.append_nil _).symm⟩
      | .float q :: _ => exact ⟨rfl, hq, (List.append_nil _).symm⟩

example : ((spec 0).after [.ext 1 0 [.bang], .ext 2 1 [.float 3], .ext 4 0 [.sym "a", .float 2], .ext 5 1 [.float 0], .ext 6 0 []]).2 =
    [(4, 0, [.sym "a", .float 2])] := by decide

end Spigot

/-! ## `[moses]` -/

namespace Moses

/-- numbers below the bound go to the left outlet, the others to the right -/
def spec (a1 : ℚ) : Reacts ℚ where
  init := a1
  on b _ i m :=
    match i, m with
    | 0, .float f :: _ => (b, [(if f < b then 0 else 1, num1 f)])
    | 1, .float q :: _ => (q, [])
    | _, _ => (b, [])

/-- single numbers at the left inlet -/
def Fits : Ev → Prop
  | .ext _ 0 m => ∃ f, m = num1 f
  | .ext _ i _ => i = 1
  | .tick => True

theorem Fits.inlet {e : Ev} (h : Fits e) : Inlet e := by
  match e, h with
  | .ext _ 0 _, _ => exact Nat.zero_lt_succ _
  | .ext _ (i + 1) _, h => simp only [Fits] at h; simp only [Inlet]; omega
  | .tick, _ => trivial

variable {a1 : ℚ} {c : Ctx} {s s' : St}

theorem run0 {f : ℚ} : Ends (sys a1 c) [((0, 0), num1 f)] s s' ↔
    s' = { s.set 7 [.float (tf (f ≥ num (s.mem 5)))] with log := s.log ++ [(s.now, if f < num (s.mem 5) then 0 else 1, num1 f)] } := by
  by_cases h : f < num (s.mem 5)
  · have h' : ¬ num (s.mem 5) ≤ f := not_le.mpr h
    simp [lib_step, lib_moses, Op.eval, tf, h, h']
  · have h' : num (s.mem 5) ≤ f := not_lt.mp h
    simp [lib_step, lib_moses, Op.eval, tf, h, h']

theorem run1 {m : Msg} : Ends (sys a1 c) [((0, 1), m)] s s' ↔ s' = (step c (.bin .ge a1) 5 1 m s).1 := by
  match m with
  | [] => simp [lib_step, lib_moses, step, binStep]
  | .bang :: _ => simp [lib_step, lib_moses, step, binStep]
  | .sym _ :: _ => simp [lib_step, lib_moses, step, binStep]
  | .float q :: m' => simp [lib_step, lib_moses]

/-- **C69**: the generated code of `[moses a1]` -/
theorem moses_does (M : Mach) (hM : Code a1 c M) (tab : Nat → List ℚ) :
    Does M drv (start c (nodes a1) tab) Fits (spec a1) := by
  refine does_of_simulates (to_code hM (fun _ => Fits.inlet) (simulates_of_reacts (R := fun g s => num (s.mem 5) = g) ?_ ?_))
    fun x s h => ⟨h.1.q, h.1.log⟩
  · have hb : Ends (sys a1 c) [] (start c (nodes a1) tab) _ := ends_nil.mpr rfl
    exact ⟨_, hb, rfl, rfl, rfl⟩
  · intro g s t i m hr hq hf
    match i, hf with
    | 0, ⟨f, hf⟩ =>
      subst hf
      refine ⟨_, run0.mpr rfl, ?_⟩
      simp [spec, hr, hq, lib_step]
    | 1, _ =>
      refine ⟨_, run1.mpr rfl, ?_⟩
      match m with
      | [] => exact ⟨hr, hq, (List.append_nil _).symm⟩
      | .bang :: _ => exact ⟨hr, hq, (List.append_nil _).symm⟩
      | .sym _ :: _ => exact ⟨hr, hq, (List.append_nil _).symm⟩
      | .float q :: _ => exact ⟨rfl, hq, (List.append_nil _).symm⟩

/-- 4 and 5 with the bound 5, then with 4 -/
example : ((spec 5).after [.ext 1 0 [.float 4], .ext 1 0 [.float 5], .ext 2 1 [.float 4], .ext 3 0 [.float 4]]).2 =
    [(1, 0, [.float 4]), (1, 1, [.float 5]), (3, 1, [.float 4])] := by decide

end Moses

/-! ## `[int]` -/

namespace Int

/-- the integer part, towards 0, of the number that comes in or, with a bang, of the last one -/
def spec (a1 : ℚ) : Reacts ℚ where
  init := a1
  on x _ i m :=
    match i, m with
    | 0, .float f :: _ => (f, [(0, num1 (trunc f))])
    | 0, .bang :: _ => (x, [(0, num1 (trunc x))])
    | 1, .float q :: _ => (q, [])
    | _, _ => (x, [])

/-- single numbers or a bang at the left inlet -/
def Fits : Ev → Prop
  | .ext _ 0 m => m = [.bang] ∨ ∃ f, m = num1 f
  | .ext _ 1 m => ∃ f, m = num1 f
  | .ext _ _ _ => False
  | .tick => True

theorem Fits.inlet {e : Ev} (h : Fits e) : Inlet e := by
  match e, h with
  | .ext _ 0 _, _ => exact Nat.zero_lt_succ _
  | .ext _ 1 _, _ => exact Nat.lt_succ_self _
  | .tick, _ => trivial

variable {a1 : ℚ} {c : Ctx} {s s' : St}

theorem trunc_eq (f : ℚ) : (if 0 < f then (⌊f⌋ : ℚ) else (⌈f⌉ : ℚ)) = (trunc f : ℚ) := by
  unfold trunc
  rcases lt_trichotomy f 0 with h | h | h
  · rw [if_neg (not_lt.mpr h.le), if_pos h]
  · subst h; simp
  · rw [if_pos h, if_neg (not_lt.mpr h.le)]

theorem run0 {f : ℚ} : Ends (sys a1 c) [((0, 0), num1 f)] s s' ↔
    s' = { (s.set 3 [.float f]).set 9 [.float (tf (f > 0))] with log := s.log ++ [(s.now, 0, num1 (trunc f))] } := by
  rw [← trunc_eq]
  by_cases h : 0 < f <;> simp [lib_step, lib_int, Op.eval, tf, h]

theorem run0b (hm : s.mem 3 = num1 f) : Ends (sys a1 c) [((0, 0), [.bang])] s s' ↔
    s' = { s.set 9 [.float (tf (f > 0))] with log := s.log ++ [(s.now, 0, num1 (trunc f))] } := by
  rw [← trunc_eq]
  by_cases h : 0 < f <;> simp [lib_step, lib_int, Op.eval, tf, h, hm]

theorem run1 {f : ℚ} : Ends (sys a1 c) [((0, 1), num1 f)] s s' ↔ s' = s.set 3 [.float f] := by
  simp [lib_step, lib_int]

/-- **C69**: the generated code of `[int a1]` -/
theorem int_does (M : Mach) (hM : Code a1 c M) (tab : Nat → List ℚ) :
    Does M drv (start c (nodes a1) tab) Fits (spec a1) := by
  refine does_of_simulates (to_code hM (fun _ => Fits.inlet) (simulates_of_reacts (R := fun g s => s.mem 3 = num1 g) ?_ ?_))
    fun x s h => ⟨h.1.q, h.1.log⟩
  · have hb : Ends (sys a1 c) [] (start c (nodes a1) tab) _ := ends_nil.mpr rfl
    exact ⟨_, hb, rfl, rfl, rfl⟩
  · intro g s t i m hr hq hf
    match i, hf with
    | 0, .inl hf =>
      subst hf
      refine ⟨_, (run0b (s := { s with now := t }) hr).mpr rfl, ?_⟩
      simp [spec, hr, hq, lib_step]
    | 0, .inr ⟨f, hf⟩ =>
      subst hf
      refine ⟨_, run0.mpr rfl, ?_⟩
      simp [spec, hq, lib_step]
    | 1, ⟨f, hf⟩ =>
      subst hf
      refine ⟨_, run1.mpr rfl, ?_⟩
      simp [spec, hq, lib_step]

/-- towards 0 -/
example : trunc (7 / 2) = 3 ∧ trunc (-7 / 2) = -3 ∧ trunc 0 = 0 := by decide +kernel

end Int

/-! ## `[swap]` -/

namespace Swap

/-- a number at the left inlet: it goes to the right outlet, then the last number of the right inlet goes to the left outlet; a bang
repeats -/
def spec (a1 : ℚ) : Reacts (ℚ × ℚ) where
  init := (0, a1)
  on x _ i m :=
    match i, m with
    | 0, .float f :: _ => ((f, x.2), [(1, num1 f), (0, num1 x.2)])
    | 0, .bang :: _ => (x, [(1, num1 x.1), (0, num1 x.2)])
    | 1, .float q :: _ => ((x.1, q), [])
    | _, _ => (x, [])

/-- messages that begin with a number, or a bang at the left inlet -/
def Fits : Ev → Prop
  | .ext _ 0 (.bang :: _) => True
  | .ext _ 0 (.float _ :: _) => True
  | .ext _ 1 (.float _ :: _) => True
  | .ext _ _ _ => False
  | .tick => True

theorem Fits.inlet {e : Ev} (h : Fits e) : Inlet e := by
  unfold Fits at h
  split at h <;> simp_all [Inlet]

variable {a1 : ℚ} {c : Ctx} {s s' : St}

theorem run0 {f g : ℚ} {m : Msg} (hg : s.mem 13 = num1 g) : Ends (sys a1 c) [((0, 0), .float f :: m)] s s' ↔
    s' = { s.set 6 [.float f] with log := s.log ++ [(s.now, 1, num1 f), (s.now, 0, num1 g)] } := by
  simp [lib_step, lib_swap, hg, key, List.findIdx_cons]

theorem run0b {f g : ℚ} {m : Msg} (hf : s.mem 6 = num1 f) (hg : s.mem 13 = num1 g) : Ends (sys a1 c) [((0, 0), .bang :: m)] s s' ↔
    s' = { s with log := s.log ++ [(s.now, 1, num1 f), (s.now, 0, num1 g)] } := by
  simp [lib_step, lib_swap, hf, hg, key, List.findIdx_cons]

theorem run1 {f : ℚ} {m : Msg} : Ends (sys a1 c) [((0, 1), .float f :: m)] s s' ↔ s' = s.set 13 [.float f] := by
  simp [lib_step, lib_swap]

/-- **C69**: the generated code of `[swap a1]` -/
theorem swap_does (M : Mach) (hM : Code a1 c M) (tab : Nat → List ℚ) :
    Does M drv (start c (nodes a1) tab) Fits (spec a1) := by
  refine does_of_simulates (to_code hM (fun _ => Fits.inlet) (simulates_of_reacts
    (R := fun x s => s.mem 6 = num1 x.1 ∧ s.mem 13 = num1 x.2) ?_ ?_)) fun x s h => ⟨h.1.q, h.1.log⟩
  · have hb : Ends (sys a1 c) [] (start c (nodes a1) tab) _ := ends_nil.mpr rfl
    exact ⟨_, hb, ⟨rfl, rfl⟩, rfl, rfl⟩
  · intro g s t i m hr hq hf
    match i, m, hf with
    | 0, .bang :: _, _ =>
      refine ⟨_, (run0b (s := { s with now := t }) hr.1 hr.2).mpr rfl, ?_⟩
      simp [spec, hr, hq]
    | 0, .float f :: _, _ =>
      refine ⟨_, (run0 (s := { s with now := t }) hr.2).mpr rfl, ?_⟩
      simp [spec, hr, hq, lib_step]
    | 1, .float f :: _, _ =>
      refine ⟨_, run1.mpr rfl, ?_⟩
      simp [spec, hr, hq, lib_step]

example : ((spec 5).after [.ext 1 0 [.float 4], .ext 2 1 [.float 7], .ext 3 0 [.bang]]).2 =
    [(1, 1, [.float 4]), (1, 0, [.float 5]), (3, 1, [.float 4]), (3, 0, [.float 7])] := by decide

end Swap

/-! ## `[timer]` -/

namespace Timer

/-- a message at the left inlet starts the clock; one at the right asks for the time since then, in ms -/
def spec (sr : ℚ) : Reacts Nat where
  init := 0
  on t0 t i _ :=
    match i with
    | 0 => (t, [])
    | _ => (t0, [(0, num1 ((t - t0 : ℚ) * 1000 / sr))])

variable {c : Ctx} {s s' : St}

theorem run0 {m : Msg} : Ends (sys c) [((0, 0), m)] s s' ↔ s' = s.set 6 [.float s.now] := by
  simp [lib_step, lib_timer, Elem.fill]

theorem run1 {m : Msg} (hs : c.sr ≠ 0) : Ends (sys c) [((0, 1), m)] s s' ↔
    s' = { s.set 9 [.float (c.sr / 1000)] with log := s.log ++ [(s.now, 0, num1 ((s.now - num (s.mem 6)) * 1000 / c.sr))] } := by
  have : (s.now - num (s.mem 6)) * 1000 / c.sr = (s.now - num (s.mem 6)) / (c.sr / 1000) := by
    rw [div_div_eq_mul_div]
  rw [this]
  have h2 : c.sr / 1000 ≠ 0 := by simp [hs]
  simp [lib_step, lib_timer, Elem.fill, Op.eval, hs]

/-- **C69**: the generated code of `[timer]`, for all messages -/
theorem timer_does (M : Mach) (hM : Code c M) (tab : Nat → List ℚ) (hs : c.sr ≠ 0) :
    Does M drv (start c nodes tab) Inlet (spec c.sr) := by
  refine does_of_simulates (to_code hM (fun _ h => h) (simulates_of_reacts (R := fun (t : Nat) s => num (s.mem 6) = t) ?_ ?_))
    fun x s h => ⟨h.1.q, h.1.log⟩
  · have hb : Ends (sys c) [] (start c nodes tab) _ := ends_nil.mpr rfl
    exact ⟨_, hb, by simp [spec]; rfl, rfl, rfl⟩
  · intro g s t i m hr hq hf
    match i, hf with
    | 0, _ =>
      refine ⟨_, run0.mpr rfl, ?_⟩
      simp [spec, hq, lib_step]
    | 1, _ =>
      refine ⟨_, (run1 hs).mpr rfl, ?_⟩
      simp [spec, hq, lib_step, hr]

/-- one second at 44100 Hz -/
example : ((spec 44100).after [.ext 100 0 [.bang], .ext 44200 1 [.bang]]).2 = [(44200, 0, [.float 1000])] := by decide +kernel

end Timer

/-! ## `[change]` -/

namespace Change

/-- a number comes out if it is not the last one; a bang repeats the last one; `set` changes it -/
def spec (a1 : ℚ) : Reacts ℚ where
  init := a1
  on x _ i m :=
    match i, m with
    | 0, .float f :: _ => if f = x then (x, []) else (f, [(0, num1 f)])
    | 0, .bang :: _ => (x, [(0, num1 x)])
    | 0, .sym "set" :: .float f :: _ => (f, [])
    | _, _ => (x, [])

/-- messages that begin with a number, a bang, `set` with a number -/
def Fits : Ev → Prop
  | .ext _ 0 m => (∃ f m', m = .float f :: m') ∨ m = [.bang] ∨ (∃ f, m = [.sym "set", .float f])
  | .ext _ _ _ => False
  | .tick => True

theorem Fits.inlet {e : Ev} (h : Fits e) : Inlet e := by
  match e, h with
  | .ext _ 0 _, _ => exact Nat.zero_lt_succ _
  | .tick, _ => trivial

variable {a1 : ℚ} {c : Ctx} {s s' : St}

theorem run_f {f : ℚ} {m : Msg} : Ends (sys a1 c) [((0, 0), .float f :: m)] s s' ↔
    s' = if f = num (s.mem 13) then s.set 1 [.float 0] else
      { ((s.set 1 [.float 1]).set 13 [.float f]).set 17 [.float f] with log := s.log ++ [(s.now, 0, num1 f)] } := by
  by_cases h : f = num (s.mem 13) <;> simp [lib_step, lib_change, key, List.findIdx_cons, Op.eval, tf, h]

theorem run_b {f : ℚ} (h : s.mem 17 = num1 f) : Ends (sys a1 c) [((0, 0), [.bang])] s s' ↔
    s' = { s with log := s.log ++ [(s.now, 0, num1 f)] } := by
  simp [lib_step, lib_change, key, List.findIdx_cons, h]

theorem run_s {f : ℚ} : Ends (sys a1 c) [((0, 0), [.sym "set", .float f])] s s' ↔
    s' = (s.set 13 [.float f]).set 17 [.float f] := by
  simp [lib_step, lib_change, key, List.findIdx_cons]

/-- **C69**: the generated code of `[change a1]` -/
theorem change_does (M : Mach) (hM : Code a1 c M) (tab : Nat → List ℚ) :
    Does M drv (start c (nodes a1) tab) Fits (spec a1) := by
  refine does_of_simulates (to_code hM (fun _ => Fits.inlet) (simulates_of_reacts
    (R := fun x s => num (s.mem 13) = x ∧ s.mem 17 = num1 x) ?_ ?_)) fun x s h => ⟨h.1.q, h.1.log⟩
  · have hb : Ends (sys a1 c) [] (start c (nodes a1) tab) _ := ends_nil.mpr rfl
    exact ⟨_, hb, ⟨rfl, rfl⟩, rfl, rfl⟩
  · intro g s t i m hr hq hf
    match i, hf with
    | 0, .inl ⟨f, m', hm⟩ =>
      subst hm
      refine ⟨_, run_f.mpr rfl, ?_⟩
      by_cases h : f = g <;> simp [spec, hr, hq, h, lib_step]
    | 0, .inr (.inl hm) =>
      subst hm
      refine ⟨_, (run_b (s := { s with now := t }) hr.2).mpr rfl, ?_⟩
      simp [spec, hr, hq]
    | 0, .inr (.inr ⟨f, hm⟩) =>
      subst hm
      refine ⟨_, run_s.mpr rfl, ?_⟩
      simp [spec, hq, lib_step]

/-- **C69**: of numbers only those come out that differ from the number before (the first: from `a1`) -/
theorem change_removes_repetitions (a1 : ℚ) (l : List (Nat × ℚ)) :
    ((spec a1).after (l.map fun x => .ext x.1 0 (num1 x.2))).2.map (·.2) =
      ((a1 :: l.map (·.2)).destutter (· ≠ ·)).tail.map fun f => (0, num1 f) := by
  have head : ∀ (l : List ℚ) (a : ℚ), ∃ r, l.destutter' (· ≠ ·) a = a :: r := by
    intro l a
    induction l with
    | nil => exact ⟨[], rfl⟩
    | cons x l ih =>
      by_cases h : a ≠ x
      · exact ⟨_, List.destutter'_cons_pos _ h⟩
      · rw [List.destutter'_cons_neg _ h]
        exact ih
  have key : ∀ (l : List (Nat × ℚ)) (a : ℚ) (log : List (Nat × Nat × Msg)),
      ((l.map fun x => Ev.ext x.1 0 (num1 x.2)).foldl (spec a1).step (a, log)).2.map (·.2) =
        log.map (·.2) ++ ((l.map (·.2)).destutter' (· ≠ ·) a).tail.map fun f => (0, num1 f) := by
    intro l
    induction l with
    | nil => intro a log; simp
    | cons x l ih =>
      intro a log
      rw [List.map_cons, List.foldl_cons, List.map_cons]
      by_cases h : x.2 = a
      · have e : (spec a1).step (a, log) (.ext x.1 0 (num1 x.2)) = (a, log) := by simp [Reacts.step, spec, h]
        rw [e, List.destutter'_cons_neg _ (by simp [h])]
        exact ih a log
      · have e : (spec a1).step (a, log) (.ext x.1 0 (num1 x.2)) = (x.2, log ++ [(x.1, 0, num1 x.2)]) := by
          simp [Reacts.step, spec, h]
        rw [e, List.destutter'_cons_pos _ (by simpa using fun e => h e.symm), ih]
        obtain ⟨r, hr⟩ := head (l.map (·.2)) x.2
        rw [hr]
        simp
  have := key l a1 []
  simpa [Reacts.after, List.destutter, spec] using this

example : ((spec 0).after ([(1, 0), (2, 3), (3, 3), (4, 0), (5, 3)].map fun x : Nat × ℚ => .ext x.1 0 (num1 x.2))).2 =
    [(2, 0, [.float 3]), (4, 0, [.float 0]), (5, 0, [.float 3])] := by decide

end Change

/-! ## `[stripnote]` -/

namespace Stripnote

/-- a pitch, or a pitch with a velocity, comes out (velocity at the right outlet, then pitch at the left) unless the velocity is 0;
the velocity of a pitch alone is the last one that came in at the right inlet or, if it was not 0, in a list -/
def spec : Reacts ℚ where
  init := 0
  on v _ i m :=
    match i, m with
    | 0, .float p :: .float v' :: _ => if v' = 0 then (v, []) else (v', [(1, num1 v'), (0, num1 p)])
    | 0, .float p :: _ => (v, if v = 0 then [] else [(1, num1 v), (0, num1 p)])
    | 1, .float q :: _ => (q, [])
    | _, _ => (v, [])

/-- a pitch, a pitch and a velocity, a velocity at the right inlet -/
def Fits : Ev → Prop
  | .ext _ 0 m => (∃ p, m = [.float p]) ∨ ∃ p v, m = [.float p, .float v]
  | .ext _ 1 m => ∃ q, m = [.float q]
  | .ext _ _ _ => False
  | .tick => True

theorem Fits.inlet {e : Ev} (h : Fits e) : Inlet e := by
  match e, h with
  | .ext _ 0 _, _ => exact Nat.zero_lt_succ _
  | .ext _ 1 _, _ => exact Nat.lt_succ_self _
  | .tick, _ => trivial

variable {c : Ctx} {s s' : St}

/-- what is remembered between messages -/
structure R (v : ℚ) (s : St) : Prop where
  pack : ∃ p, s.mem 47 = [.float p, .float v]
  list : s.mem 36 = [.float 0]

theorem run_p {p v : ℚ} {x : ℚ} (h1 : s.mem 47 = [.float x, .float v]) (h2 : s.mem 36 = [.float 0]) :
    ∃ s', Ends (sys c) [((0, 0), [.float p])] s s' ∧ R v s' ∧ s'.q = s.q ∧
      s'.log = s.log ++ (if v = 0 then [] else [(s.now, 1, num1 v), (s.now, 0, num1 p)]) := by
  by_cases h : v = 0
  · refine ⟨?s1, ?h1, ?_⟩
    case h1 =>
      simp [lib_step, lib_stripnote, h1, h2, Op.eval, tf, overlay, h]
      rfl
    refine ⟨⟨⟨p, ?_⟩, ?_⟩, ?_⟩ <;> simp [lib_step, h]
  · refine ⟨?s2, ?h2, ?_⟩
    case h2 =>
      simp [lib_step, lib_stripnote, h1, h2, Op.eval, tf, overlay, h]
      rfl
    refine ⟨⟨⟨p, ?_⟩, ?_⟩, ?_⟩ <;> simp [lib_step, h]

theorem run_pv {p v v' : ℚ} {x : ℚ} (h1 : s.mem 47 = [.float x, .float v]) :
    ∃ s', Ends (sys c) [((0, 0), [.float p, .float v'])] s s' ∧ R (if v' = 0 then v else v') s' ∧ s'.q = s.q ∧
      s'.log = s.log ++ (if v' = 0 then [] else [(s.now, 1, num1 v'), (s.now, 0, num1 p)]) := by
  by_cases h : v' = 0
  · refine ⟨?s3, ?h3, ?_⟩
    case h3 =>
      simp [lib_step, lib_stripnote, h1, Op.eval, tf, overlay, h]
      rfl
    refine ⟨⟨⟨p, ?_⟩, ?_⟩, ?_⟩ <;> simp [lib_step, h]
  · refine ⟨?s4, ?h4, ?_⟩
    case h4 =>
      simp [lib_step, lib_stripnote, h1, Op.eval, tf, overlay, h]
      rfl
    refine ⟨⟨⟨p, ?_⟩, ?_⟩, ?_⟩ <;> simp [lib_step, h]

theorem run1 {v q : ℚ} {x : ℚ} (h1 : s.mem 47 = [.float x, .float v]) :
    Ends (sys c) [((0, 1), [.float q])] s s' ↔ s' = s.set 47 [.float x, .float q] := by
  simp [lib_step, lib_stripnote, h1]

/-- **C69**: the generated code of `[stripnote]` -/
theorem stripnote_does (M : Mach) (hM : Code c M) (tab : Nat → List ℚ) : Does M drv (start c nodes tab) Fits spec := by
  refine does_of_simulates (to_code hM (fun _ => Fits.inlet) (simulates_of_reacts (R := R) ?_ ?_)) fun x s h => ⟨h.1.q, h.1.log⟩
  · have hb : Ends (sys c) [] (start c nodes tab) _ := ends_nil.mpr rfl
    exact ⟨_, hb, ⟨⟨0, rfl⟩, rfl⟩, rfl, rfl⟩
  · intro g s t i m hr hq hf
    obtain ⟨x, hx⟩ := hr.pack
    match i, hf with
    | 0, .inl ⟨p, hm⟩ =>
      subst hm
      obtain ⟨s', e, e1, e2, e3⟩ := run_p (c := c) (s := { s with now := t }) (p := p) hx hr.list
      refine ⟨s', e, e1, e2.trans hq, e3.trans ?_⟩
      by_cases h : g = 0 <;> simp [spec, h]
    | 0, .inr ⟨p, v, hm⟩ =>
      subst hm
      obtain ⟨s', e, e1, e2, e3⟩ := run_pv (c := c) (s := { s with now := t }) (p := p) (v' := v) hx
      refine ⟨s', e, ?_, e2.trans hq, e3.trans ?_⟩
      · by_cases h : v = 0 <;> simpa [spec, h] using e1
      · by_cases h : v = 0 <;> simp [spec, h]
    | 1, ⟨q, hm⟩ =>
      subst hm
      refine ⟨_, (run1 (s := { s with now := t }) hx).mpr rfl, ⟨⟨x, ?_⟩, ?_⟩, ?_⟩ <;> simp [spec, lib_step, hr.list, hq]

/-- **C69**: with lists only, the notes that come out are exactly those with a velocity that is not 0, in order -/
theorem stripnote_lists (l : List (Nat × ℚ × ℚ)) :
    (spec.after (l.map fun x => .ext x.1 0 [.float x.2.1, .float x.2.2])).2 =
      (l.filter fun x => decide (x.2.2 ≠ 0)).flatMap fun x => [(x.1, 1, num1 x.2.2), (x.1, 0, num1 x.2.1)] := by
  have key : ∀ (l : List (Nat × ℚ × ℚ)) (v : ℚ) (log : List (Nat × Nat × Msg)),
      ((l.map fun x => Ev.ext x.1 0 [.float x.2.1, .float x.2.2]).foldl spec.step (v, log)).2 =
        log ++ (l.filter fun x => decide (x.2.2 ≠ 0)).flatMap fun x => [(x.1, 1, num1 x.2.2), (x.1, 0, num1 x.2.1)] := by
    intro l
    induction l with
    | nil => intro v log; simp
    | cons x l ih =>
      intro v log
      rw [List.map_cons, List.foldl_cons]
      by_cases h : x.2.2 = 0
      · rw [show spec.step (v, log) (.ext x.1 0 [.float x.2.1, .float x.2.2]) = (v, log) by simp [Reacts.step, spec, h], ih]
        simp [h]
      · rw [show spec.step (v, log) (.ext x.1 0 [.float x.2.1, .float x.2.2]) =
          (x.2.2, log ++ [(x.1, 1, num1 x.2.2), (x.1, 0, num1 x.2.1)]) by simp [Reacts.step, spec, h], ih]
        simp [h]
  exact key l 0 []

/-- **C69** (F84): the velocity 0 of a list is not remembered: after `60 100` and `60 0` a lone pitch is taken for a note with the
velocity 100 -/
theorem stripnote_stale : (spec.after [.ext 1 0 [.float 60, .float 100], .ext 2 0 [.float 60, .float 0], .ext 3 0 [.float 64]]).2 =
    [(1, 1, [.float 100]), (1, 0, [.float 60]), (3, 1, [.float 100]), (3, 0, [.float 64])] := by decide

end Stripnote

end Verif.Lib
