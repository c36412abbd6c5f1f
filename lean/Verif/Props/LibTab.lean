import Verif.Props.LibMath
import Verif.Lib.Tabread
/-!
# C79 (continued): `[tabread]`
-/
namespace Verif.Lib
open Verif.Control (Dest Kind Cast Patch Act Sys Env Big)

namespace Tabread

/-- the element of a table nearest to the (cut) index: the first for negative indices, the last for those beyond the end -/
def element (T : List ℚ) (f : ℚ) : ℚ :=
  if f < 1 then T.getD 0 0 else if (T.length : ℚ) ≤ f then T.getLast?.getD 0 else T.getD ⌊f⌋.toNat 0

/-- messages that do not choose another table -/
def Fits : Ev → Prop
  | .ext _ i m => i = 0 ∧ m ≠ [] ∧ key m ≠ .sym "set"
  | .tick => True

theorem Fits.inlet {e : Ev} (h : Fits e) : Inlet e := by
  match e, h with
  | .ext _ _ _, h => simp only [Fits] at h; simp only [Inlet]; omega
  | .tick, _ => trivial

variable {a1 : String} {c : Ctx} {s s' : St}

theorem clipped {T : List ℚ} (hT : T ≠ []) (f : ℚ) :
    0 ≤ min (max f 0) ((T.length : ℚ) - 1) ∧ T[⌊min (max f 0) ((T.length : ℚ) - 1)⌋.toNat]? = some (element T f) := by
  have hl : 1 ≤ T.length := List.length_pos_iff.2 hT
  have hl' : (1 : ℚ) ≤ (T.length : ℚ) := by exact_mod_cast hl
  refine ⟨le_min (le_max_right _ _) (by linarith), ?_⟩
  unfold element
  split
  · next h =>
    have e : ⌊min (max f 0) ((T.length : ℚ) - 1)⌋ = 0 := by
      rw [Int.floor_eq_iff]
      push_cast
      exact ⟨le_min (le_max_right _ _) (by linarith), lt_of_le_of_lt (min_le_left _ _) (max_lt (by linarith) (by norm_num))⟩
    rw [e]
    simp [List.getD, List.getElem?_eq_getElem (show 0 < T.length by omega)]
  · next h =>
    split
    · next h2 =>
      have e : min (max f 0) ((T.length : ℚ) - 1) = ((T.length - 1 : ℕ) : ℚ) := by
        rw [Nat.cast_sub hl, Nat.cast_one]
        exact min_eq_right ((by linarith : (T.length : ℚ) - 1 ≤ f).trans (le_max_left _ _))
      rw [e, Int.floor_natCast, Int.toNat_natCast, ← List.getLast?_eq_getElem?]
      cases hg : T.getLast? with
      | none => exact absurd (List.getLast?_eq_none_iff.1 hg) hT
      | some v => rfl
    · next h2 =>
      have hf : (1 : ℚ) ≤ f := not_lt.1 h
      have hfl : f < T.length := not_le.1 h2
      have hi : 0 ≤ ⌊f⌋ := Int.floor_nonneg.2 (by linarith)
      have hlt : ⌊f⌋.toNat < T.length := by
        have : (⌊f⌋ : ℚ) < T.length := lt_of_le_of_lt (Int.floor_le f) hfl
        have : ⌊f⌋ < (T.length : ℤ) := by exact_mod_cast this
        omega
      have e : ⌊min (max f 0) ((T.length : ℚ) - 1)⌋ = ⌊f⌋ := by
        rw [max_eq_left (by linarith), Int.floor_eq_iff]
        refine ⟨le_min (Int.floor_le f) ?_, lt_of_le_of_lt (min_le_left _ _) (Int.lt_floor_add_one f)⟩
        have : ⌊f⌋ + 1 ≤ (T.length : ℤ) := by omega
        have : ((⌊f⌋ + 1 : ℤ) : ℚ) ≤ ((T.length : ℤ) : ℚ) := by exact_mod_cast this
        push_cast at this
        linarith
      rw [e, List.getD, List.getElem?_eq_getElem hlt]
      rfl

theorem step_table (hc : c.tabId a1 = some 0) {o i : Nat} :
    step c .system o i [.sym "table", .sym a1, .sym "length"] s = (s, some (0, [.float ((s.tab 0).length : ℚ)])) := by
  simp [step, systemStep, hc]

theorem step_read {o : Nat} {f v : ℚ} {m : Msg} (h0 : 0 ≤ f) (h : (s.tab 0)[⌊f⌋.toNat]? = some v) :
    step c (.tabread 0) o 0 (.float f :: m) s = (s, some (0, [.float v])) := by
  simp [step, tabreadStep, h0, h]

theorem run {f : ℚ} {m : Msg} {T : List ℚ} (hT : T ≠ []) (ht : s.tab 0 = T) (hc : c.tabId a1 = some 0) (h17 : s.mem 17 = [.sym a1]) :
    ∃ s', Ends (sys a1 c) [((0, 0), .float f :: m)] s s' ∧ s'.tab = s.tab ∧ s'.mem 17 = [.sym a1] ∧ s'.q = s.q ∧
      s'.log = s.log ++ [(s.now, 0, num1 (element T f))] := by
  obtain ⟨c1, c2⟩ := clipped hT f
  refine ⟨?s1, ?h1, ?_⟩
  case h1 =>
    simp [lib_step, lib_tabread, key, h17, step_table hc, ht, Op.eval, step_read, c1, c2]
    rfl
  refine ⟨?_, ?_, ?_, ?_⟩ <;> simp [lib_step, h17]

/-- **C79** the generated code of `[tabread]`, for all messages: the element at the index, the first or the last one beside the table, which
is never left; the size is asked anew each time -/
theorem tabread_does (M : Mach) (hM : Code a1 c M) (tab : Nat → List ℚ) (hc : c.tabId a1 = some 0) (hT : tab 0 ≠ []) :
    Does M drv (start c (nodes a1) tab) Fits (func (element (tab 0))) := by
  refine does_of_simulates (to_code hM (fun _ => Fits.inlet) (simulates_of_reacts
    (R := fun _ s => s.tab 0 = tab 0 ∧ s.mem 17 = [.sym a1]) ?_ ?_)) fun x s h => ⟨h.1.q, h.1.log⟩
  · have hb : Ends (sys a1 c) [] (start c (nodes a1) tab) _ := ends_nil.mpr rfl
    exact ⟨_, hb, ⟨rfl, rfl⟩, rfl, rfl⟩
  · intro g s t i m hr hq hf
    obtain ⟨rfl, hm, hs⟩ := hf
    match m, hm, hs with
    | .float f :: m, _, _ =>
      obtain ⟨s', h1, h2, h3, h4, h5⟩ := run (s := { s with now := t }) (a1 := a1) (c := c) (f := f) (m := m) hT hr.1 hc hr.2
      exact ⟨s', h1, ⟨by rw [h2]; exact hr.1, h3⟩, by rw [h4]; exact hq, by rw [h5]; simp [func]⟩
    | .bang :: m, _, _ =>
      refine ⟨?s2, (?h2 : Ends (sys a1 c) [((0, 0), .bang :: m)] _ _), ?_⟩
      case h2 => simp [lib_step, lib_tabread, hr.1, hr.2, step_table hc, Op.eval, castTo, cast, key]; rfl
      exact ⟨hr, hq, by simp [func, lib_step]⟩
    | .sym x :: m, _, hs =>
      refine ⟨?s3, (?h3 : Ends (sys a1 c) [((0, 0), .sym x :: m)] _ _), ?_⟩
      case h3 => simp [lib_step, lib_tabread, hr.1, hr.2, step_table hc, Op.eval, castTo, cast, Ne.symm hs]; rfl
      exact ⟨hr, hq, by simp [func, lib_step]⟩

/-- a table of three -/
example : element [10, 20, 30] (-5) = 10 ∧ element [10, 20, 30] 1.9 = 20 ∧ element [10, 20, 30] 7 = 30 := by decide +kernel

end Tabread
end Verif.Lib
