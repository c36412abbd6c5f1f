import Verif.Lib.Until
import Verif.Props.LibSmall
/-!
C69: `[until]`.
-/
namespace Verif.Lib.Until
open Verif.Control (Dest Kind Cast Patch Act Sys Env Big)

/-- `n` bangs for a number `n`, cut to an integer, none for numbers below 1; nothing for a bang (F85: in Pd a bang starts a loop that
the right inlet ends) -/
def spec : Reacts Unit where
  init := ()
  on _ _ i m :=
    match i, m with
    | 0, .float f :: _ => ((), List.replicate (trunc f).toNat (0, [.bang]))
    | _, _ => ((), [])

/-- messages that begin with a number or a bang at the left inlet, anything at the right one -/
def Fits : Ev → Prop
  | .ext _ 0 (.float _ :: _) => True
  | .ext _ 0 (.bang :: _) => True
  | .ext _ 0 _ => False
  | .ext _ i _ => i = 1
  | .tick => True

theorem Fits.inlet {e : Ev} (h : Fits e) : Inlet e := by
  unfold Fits at h
  split at h <;> simp_all [Inlet]

variable {c : Ctx} {s s' : St}

/-- the loop, from `x` to `n` -/
theorem loop (k : Nat) {x n : ℚ} (hk : n = x + k) (h8 : s.mem 8 = [.float n]) (h47 : s.mem 47 = [.float 1]) :
    ∃ s', Ends (sys c) [((9, 0), [.float x])] s s' ∧ s'.q = s.q ∧ s'.mem 53 = s.mem 53 ∧ s'.mem 21 = s.mem 21 ∧
      s'.log = s.log ++ List.replicate k (s.now, 0, [.bang]) := by
  induction k generalizing x s with
  | zero =>
    have hx : x = n := by simpa using hk.symm
    subst hx
    refine ⟨?s1, ?h1, ?_⟩
    case h1 =>
      simp [lib_step, lib_until, h8, h47, Op.eval, tf]
      rfl
    simp [lib_step]
  | succ k ih =>
    have hx : x < n := by
      rw [hk]
      have : (0 : ℚ) ≤ k := Nat.cast_nonneg k
      push_cast
      linarith
    obtain ⟨s', e, e1, e2, e3, e4⟩ := ih (s := { (s.set 10 [.float x]).set 7 [.float 1] with log := s.log ++ [(s.now, 0, [.bang])] })
      (x := x + 1) (by rw [hk]; push_cast; ring) (by simp [lib_step, h8]) (by simp [lib_step, h47])
    refine ⟨s', ?_, ?_⟩
    · have : Ends (sys c) [((9, 0), [.float x])] s s' ↔ Ends (sys c) [((9, 0), [.float (x + 1)])]
          { (s.set 10 [.float x]).set 7 [.float 1] with log := s.log ++ [(s.now, 0, [.bang])] } s' := by
        rw [ends_cons (d := (9, 0)) (m := [.float x])]
        simp [-ends_cons, lib_step, lib_until, h8, h47, Op.eval, tf, hx]
      exact this.mpr e
    · refine ⟨e1, e2.trans (by simp [lib_step]), e3.trans (by simp [lib_step]), e4.trans ?_⟩
      simp [lib_step, List.replicate_succ]

theorem trunc_eq (f : ℚ) : (if 0 < f then (⌊f⌋ : ℚ) else (⌈f⌉ : ℚ)) = (trunc f : ℚ) := Int.trunc_eq f

theorem run_int {f : ℚ} {m : Msg} : Ends (sys c) [((0, 0), .float f :: m)] s s' ↔
    Ends (sys c) [((16, 0), [.float (trunc f)])] (((s.set 47 [.float 1]).set 27 [.float f]).set 33 [.float (tf (f > 0))]) s' := by
  rw [← trunc_eq]
  by_cases h : 0 < f <;> simp [lib_step, lib_until, Op.eval, tf, h]

/-- a number below 1 -/
theorem run_few {x : ℚ} (h21 : s.mem 21 = [.float 1]) (h : x < 1) :
    Ends (sys c) [((16, 0), [.float x])] s s' ↔ s' = s.set 23 [.float 0] := by
  have h' : ¬ 1 ≤ x := not_le.mpr h
  simp [lib_step, lib_until, Op.eval, tf, h21, h']

theorem run_many {x : ℚ} (h21 : s.mem 21 = [.float 1]) (h53 : s.mem 53 = [.float 0]) (h : 1 ≤ x) :
    Ends (sys c) [((16, 0), [.float x])] s s' ↔
      Ends (sys c) [((9, 0), [.float 0])] ((s.set 23 [.float 1]).set 8 [.float x]) s' := by
  simp [lib_step, lib_until, Op.eval, tf, h21, h53, h]

/-- **C69**: the generated code of `[until]` -/
theorem until_does (M : Mach) (hM : Code c M) (tab : Nat → List ℚ) : Does M drv (start c nodes tab) Fits spec := by
  refine does_of_simulates (to_code hM (fun _ => Fits.inlet) (simulates_of_reacts
    (R := fun _ s => s.mem 53 = [.float 0] ∧ s.mem 21 = [.float 1]) ?_ ?_)) fun x s h => ⟨h.1.q, h.1.log⟩
  · have hb : Ends (sys c) [] (start c nodes tab) _ := ends_nil.mpr rfl
    exact ⟨_, hb, ⟨rfl, rfl⟩, rfl, rfl⟩
  · intro g s t i m hr hq hf
    match i, m, hf with
    | 0, .float f :: m, _ =>
      by_cases h : trunc f < 1
      · have h' : (trunc f : ℚ) < 1 := by exact_mod_cast h
        refine ⟨_, run_int.mpr ((run_few (by simp [lib_step, hr]) h').mpr rfl), ?_⟩
        have : (trunc f).toNat = 0 := by omega
        simp [lib_step, spec, hr, hq, this]
      · have h' : (1 : ℚ) ≤ (trunc f : ℚ) := by exact_mod_cast not_lt.mp h
        have hk : (trunc f : ℚ) = 0 + ((trunc f).toNat : ℚ) := by
          have : ((trunc f).toNat : Int) = trunc f := by omega
          rw [zero_add]
          exact_mod_cast this.symm
        obtain ⟨s', e, e1, e2, e3, e4⟩ := loop (c := c) (s := (((({ s with now := t } : St).set 47 [.float 1]).set 27 [.float f]).set 33
          [.float (tf (f > 0))] |>.set 23 [.float 1]).set 8 [.float (trunc f)]) (trunc f).toNat hk (by simp [lib_step])
          (by simp [lib_step])
        refine ⟨s', run_int.mpr ((run_many (by simp [lib_step, hr]) (by simp [lib_step, hr]) h').mpr e), ?_⟩
        refine ⟨⟨e2.trans (by simp [lib_step, hr]), e3.trans (by simp [lib_step, hr])⟩, e1.trans hq, e4.trans ?_⟩
        simp [lib_step, spec]
    | 0, .bang :: m, _ =>
      refine ⟨?s2, ?h2, ?_⟩
      case h2 =>
        show Ends (sys c) [((0, 0), .bang :: m)] _ _
        have hc : castTo .float [(24, 0)] (.bang :: m) = [] := rfl
        simp [lib_step, lib_until, hc]
        rfl
      simp [lib_step, spec, hr, hq]
    | 1, m, _ =>
      refine ⟨?s1, ?h1, ?_⟩
      case h1 =>
        show Ends (sys c) [((0, 1), m)] _ _
        simp [lib_step, lib_until]
        rfl
      simp [lib_step, spec, hr, hq]

/-- three bangs for 3.7, none for 0.5; the right inlet does nothing afterwards -/
example : (spec.after [.ext 1 0 [.float (37 / 10)], .ext 2 0 [.float (1 / 2)], .ext 3 1 [.bang]]).2 =
    [(1, 0, [.bang]), (1, 0, [.bang]), (1, 0, [.bang])] := by decide +kernel

end Verif.Lib.Until
