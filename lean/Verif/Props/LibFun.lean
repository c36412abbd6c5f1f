import Verif.Lib.Sin
import Verif.Lib.Cos
import Verif.Lib.Tan
import Verif.Lib.Atan
import Verif.Lib.Log
import Verif.Lib.Tabwrite
/-!
# C92: functions of numbers, and writing into arrays

`[sin]`, `[cos]`, `[tan]`, `[atan]`, `[log]` and `[tabwrite]`: the generated code of the library patches, for every history.
-/
set_option linter.unusedSimpArgs false
namespace Verif.Lib
open Verif.Control (Dest Kind Cast Patch Act Sys Env Big)

/-! ### specification -/

/-- a number gives the number `g` of it, nothing else gives anything -/
def apply1 (g : ℚ → ℚ) : Reacts Unit where
  init := ()
  on _ _ _ m :=
    match m with
    | .float q :: _ => ((), [(0, [.float (g q)])])
    | _ => ((), [])

/-- messages that are not empty, at the only inlet -/
def One : Ev → Prop
  | .ext _ i m => i = 0 ∧ m ≠ []
  | .tick => True

/-- an array with the place where the next number is written -/
structure Pen where
  place : Nat
  array : List ℚ

/-- a number at the left inlet is written, one at the right inlet is the place, if the array has it -/
def Pen.on (p : Pen) : Ev → Pen
  | .ext _ 0 (.float v :: _) => { p with array := p.array.set p.place v }
  | .ext _ 1 (.float q :: _) => if 0 ≤ q ∧ ⌊q⌋ < p.array.length then { p with place := ⌊q⌋.toNat } else p
  | _ => p

/-- messages at the two inlets of `[tabwrite]` that do not choose another array and whose places are in an array of length `n` or outside of
the memory of a table of this length (which is rounded up to a multiple of the SIMD width `w`, HvTable.c:20-25: the code takes places
between `n` and this number, too, and writes into the rest of the memory, which is not modelled), as numbers of 32 bits -/
def Writes (w n : Nat) : Ev → Prop
  | .ext _ i m => i < 2 ∧ m ≠ [] ∧ m.head? ≠ some (.sym "set") ∧ m.head? ≠ some (.sym "symbol") ∧
      ∀ q, i = 1 → m.head? = some (.float q) → q < 2^32 ∧ (⌊q⌋ < n ∨ (roundUp w n : ℤ) ≤ ⌊q⌋)
  | .tick => True

variable {c : Ctx}

namespace Sin

/-- **C92** `[sin]` -/
theorem does (M : Mach) (hM : Code c M) (tab : Nat → List ℚ) :
    Does M drv (start c nodes tab) One (apply1 (c.fn "sin")) := by
  refine does_of_simulates (to_code hM (fun e h => by cases e with | ext t i m => exact h.1 ▸ Nat.zero_lt_succ _ | tick => trivial)
    (simulates_of_reacts (R := fun _ _ => True) ?_ ?_)) fun x s h => ⟨h.1.q, h.1.log⟩
  · have hb : Ends (sys c) [] (start c nodes tab) _ := ends_nil.mpr rfl
    exact ⟨_, hb, trivial, rfl, rfl⟩
  · intro v s t i m hr hq hf
    obtain ⟨rfl, hm⟩ := hf
    match m, hm with
    | .bang :: m, _ =>
      refine ⟨?s1, (?h1 : Ends (sys c) [((0, 0), _)] _ _), ?_⟩
      case h1 => simp [lib_step, lib_cos]; rfl
      refine ⟨?_, ?_, ?_⟩ <;> simp [lib_step, apply1, hq]
    | .float q :: m, _ =>
      refine ⟨?s2, (?h2 : Ends (sys c) [((0, 0), _)] _ _), ?_⟩
      case h2 => simp [lib_step, lib_cos, fnEval]; rfl
      refine ⟨?_, ?_, ?_⟩ <;> simp [lib_step, apply1, hq]
    | .sym x :: m, _ =>
      refine ⟨?s3, (?h3 : Ends (sys c) [((0, 0), _)] _ _), ?_⟩
      case h3 => simp [lib_step, lib_cos]; rfl
      refine ⟨?_, ?_, ?_⟩ <;> simp [lib_step, apply1, hq]

end Sin

namespace Cos

/-- **C92** `[cos]` -/
theorem does (M : Mach) (hM : Code c M) (tab : Nat → List ℚ) :
    Does M drv (start c nodes tab) One (apply1 (c.fn "cos")) := by
  refine does_of_simulates (to_code hM (fun e h => by cases e with | ext t i m => exact h.1 ▸ Nat.zero_lt_succ _ | tick => trivial)
    (simulates_of_reacts (R := fun _ _ => True) ?_ ?_)) fun x s h => ⟨h.1.q, h.1.log⟩
  · have hb : Ends (sys c) [] (start c nodes tab) _ := ends_nil.mpr rfl
    exact ⟨_, hb, trivial, rfl, rfl⟩
  · intro v s t i m hr hq hf
    obtain ⟨rfl, hm⟩ := hf
    match m, hm with
    | .bang :: m, _ =>
      refine ⟨?s1, (?h1 : Ends (sys c) [((0, 0), _)] _ _), ?_⟩
      case h1 => simp [lib_step, lib_cos]; rfl
      refine ⟨?_, ?_, ?_⟩ <;> simp [lib_step, apply1, hq]
    | .float q :: m, _ =>
      refine ⟨?s2, (?h2 : Ends (sys c) [((0, 0), _)] _ _), ?_⟩
      case h2 => simp [lib_step, lib_cos, fnEval]; rfl
      refine ⟨?_, ?_, ?_⟩ <;> simp [lib_step, apply1, hq]
    | .sym x :: m, _ =>
      refine ⟨?s3, (?h3 : Ends (sys c) [((0, 0), _)] _ _), ?_⟩
      case h3 => simp [lib_step, lib_cos]; rfl
      refine ⟨?_, ?_, ?_⟩ <;> simp [lib_step, apply1, hq]

end Cos

namespace Tan

/-- **C92** `[tan]` -/
theorem does (M : Mach) (hM : Code c M) (tab : Nat → List ℚ) :
    Does M drv (start c nodes tab) One (apply1 (c.fn "tan")) := by
  refine does_of_simulates (to_code hM (fun e h => by cases e with | ext t i m => exact h.1 ▸ Nat.zero_lt_succ _ | tick => trivial)
    (simulates_of_reacts (R := fun _ _ => True) ?_ ?_)) fun x s h => ⟨h.1.q, h.1.log⟩
  · have hb : Ends (sys c) [] (start c nodes tab) _ := ends_nil.mpr rfl
    exact ⟨_, hb, trivial, rfl, rfl⟩
  · intro v s t i m hr hq hf
    obtain ⟨rfl, hm⟩ := hf
    match m, hm with
    | .bang :: m, _ =>
      refine ⟨?s1, (?h1 : Ends (sys c) [((0, 0), _)] _ _), ?_⟩
      case h1 => simp [lib_step, lib_cos]; rfl
      refine ⟨?_, ?_, ?_⟩ <;> simp [lib_step, apply1, hq]
    | .float q :: m, _ =>
      refine ⟨?s2, (?h2 : Ends (sys c) [((0, 0), _)] _ _), ?_⟩
      case h2 => simp [lib_step, lib_cos, fnEval]; rfl
      refine ⟨?_, ?_, ?_⟩ <;> simp [lib_step, apply1, hq]
    | .sym x :: m, _ =>
      refine ⟨?s3, (?h3 : Ends (sys c) [((0, 0), _)] _ _), ?_⟩
      case h3 => simp [lib_step, lib_cos]; rfl
      refine ⟨?_, ?_, ?_⟩ <;> simp [lib_step, apply1, hq]

end Tan

namespace Atan

/-- **C92** `[atan]` -/
theorem does (M : Mach) (hM : Code c M) (tab : Nat → List ℚ) :
    Does M drv (start c nodes tab) One (apply1 (c.fn "atan")) := by
  refine does_of_simulates (to_code hM (fun e h => by cases e with | ext t i m => exact h.1 ▸ Nat.zero_lt_succ _ | tick => trivial)
    (simulates_of_reacts (R := fun _ _ => True) ?_ ?_)) fun x s h => ⟨h.1.q, h.1.log⟩
  · have hb : Ends (sys c) [] (start c nodes tab) _ := ends_nil.mpr rfl
    exact ⟨_, hb, trivial, rfl, rfl⟩
  · intro v s t i m hr hq hf
    obtain ⟨rfl, hm⟩ := hf
    match m, hm with
    | .bang :: m, _ =>
      refine ⟨?s1, (?h1 : Ends (sys c) [((0, 0), _)] _ _), ?_⟩
      case h1 => simp [lib_step, lib_cos]; rfl
      refine ⟨?_, ?_, ?_⟩ <;> simp [lib_step, apply1, hq]
    | .float q :: m, _ =>
      refine ⟨?s2, (?h2 : Ends (sys c) [((0, 0), _)] _ _), ?_⟩
      case h2 => simp [lib_step, lib_cos, fnEval]; rfl
      refine ⟨?_, ?_, ?_⟩ <;> simp [lib_step, apply1, hq]
    | .sym x :: m, _ =>
      refine ⟨?s3, (?h3 : Ends (sys c) [((0, 0), _)] _ _), ?_⟩
      case h3 => simp [lib_step, lib_cos]; rfl
      refine ⟨?_, ?_, ?_⟩ <;> simp [lib_step, apply1, hq]

end Atan

namespace Log

/-- **C92** `[log]` -/
theorem does (M : Mach) (hM : Code c M) (tab : Nat → List ℚ) :
    Does M drv (start c nodes tab) One (apply1 (fun q => if 0 < q then c.fn "log" q else 0)) := by
  have hlog : ∀ q : ℚ, fnEval c "log" q = if 0 < q then c.fn "log" q else 0 := fun q => rfl
  refine does_of_simulates (to_code hM (fun e h => by cases e with | ext t i m => exact h.1 ▸ Nat.zero_lt_succ _ | tick => trivial)
    (simulates_of_reacts (R := fun _ _ => True) ?_ ?_)) fun x s h => ⟨h.1.q, h.1.log⟩
  · have hb : Ends (sys c) [] (start c nodes tab) _ := ends_nil.mpr rfl
    exact ⟨_, hb, trivial, rfl, rfl⟩
  · intro v s t i m hr hq hf
    obtain ⟨rfl, hm⟩ := hf
    match m, hm with
    | .bang :: m, _ =>
      refine ⟨?s1, (?h1 : Ends (sys c) [((0, 0), _)] _ _), ?_⟩
      case h1 => simp [lib_step, lib_cos]; rfl
      refine ⟨?_, ?_, ?_⟩ <;> simp [lib_step, apply1, hq]
    | .float q :: m, _ =>
      refine ⟨?s2, (?h2 : Ends (sys c) [((0, 0), _)] _ _), ?_⟩
      case h2 => simp [lib_step, lib_cos, hlog]; rfl
      refine ⟨?_, ?_, ?_⟩ <;> simp [lib_step, apply1, hq]
    | .sym x :: m, _ =>
      refine ⟨?s3, (?h3 : Ends (sys c) [((0, 0), _)] _ _), ?_⟩
      case h3 => simp [lib_step, lib_cos]; rfl
      refine ⟨?_, ?_, ?_⟩ <;> simp [lib_step, apply1, hq]

end Log

namespace Tabwrite
variable {a1 : String} {w : Nat}

/-- the state is that of the pen -/
def Holds (tab : Nat → List ℚ) (p : Pen) (s : St) : Prop :=
  s.mem 4 = [.float (p.place : ℚ)] ∧ s.tab 0 = p.array ∧ (∀ k, k ≠ 0 → s.tab k = tab k) ∧ s.q = [] ∧ s.log = []

section
variable {s : St} {t o : Nat} {m : Msg}
theorem tw0b {i : Nat} : step c (.tabwrite t) o i (.bang :: m) s = (s, none) := by rcases i with _ | _ | i <;> rfl
theorem tw0s {i : Nat} {x : String} : step c (.tabwrite t) o i (.sym x :: m) s = (s, none) := by rcases i with _ | _ | i <;> rfl
theorem tw0 {v : ℚ} : step c (.tabwrite t) o 0 (.float v :: m) s = (s.setTab t ((s.tab t).set ⌊num (s.mem o)⌋.toNat v), none) := rfl
theorem tw1 {q : ℚ} (h : 0 ≤ q ∧ ⌊q⌋.toNat < (s.tab t).length) :
    step c (.tabwrite t) o 1 (.float q :: m) s = (s.set o [.float (⌊q⌋.toNat : ℚ)], none) := by simp [step, tabwriteStep, h]
theorem tw1' {q : ℚ} (h : ¬ (0 ≤ q ∧ ⌊q⌋.toNat < (s.tab t).length)) :
    step c (.tabwrite t) o 1 (.float q :: m) s = (s, none) := by simp only [step, tabwriteStep, if_neg h]
end

theorem simulates (M : Mach) (hM : Code a1 c M) (tab : Nat → List ℚ) :
    ∃ S : Pen → St → Prop, (∀ p s, S p s → Holds tab p s) ∧
      Simulates M drv (start c (nodes a1) tab) (Writes w (tab 0).length) Pen.on ⟨0, tab 0⟩ S := by
  refine ⟨_, ?_, to_code hM (Sim := Holds tab) (fun e h => by cases e with | ext t i m => exact h.1 | tick => trivial) ⟨?_, ?_⟩⟩
  · intro p s h
    exact h.1
  · have hb : Ends (sys a1 c) [] (start c (nodes a1) tab) _ := ends_nil.mpr rfl
    exact ⟨_, hb, rfl, rfl, fun k _ => rfl, rfl, rfl⟩
  · intro p s e ⟨h1, h2, h3, h4, h5⟩ hf hc
    match e, hf with
    | .tick, _ => exact absurd h4 hc
    | .ext t 0 (.bang :: m), _ =>
      have hb : ∃ s', Ends (sys a1 c) [((0, 0), .bang :: m)] { s with now := t } s' ∧ Holds tab p s' := by
        refine ⟨?s1, ?h1, ?_⟩
        case h1 => simp [lib_step, lib_tabwrites, key, tw0b]; rfl
        exact ⟨h1, h2, h3, h4, h5⟩
      obtain ⟨s', g1, g2⟩ := hb
      exact ⟨s', happens_ext.mpr ⟨hc.1, hc.2, g1⟩, g2⟩
    | .ext t 0 (.sym x :: m), hx =>
      have hx' : ¬ x = "set" := fun h => hx.2.2.1 (by rw [h]; rfl)
      have hy' : ¬ x = "symbol" := fun h => hx.2.2.2.1 (by rw [h]; rfl)
      have hk : key (.sym x :: m) = .sym x := by unfold key; split <;> simp_all
      have hb : ∃ s', Ends (sys a1 c) [((0, 0), .sym x :: m)] { s with now := t } s' ∧ Holds tab p s' := by
        refine ⟨?s2, ?h2, ?_⟩
        case h2 => simp [lib_step, lib_tabwrites, hk, tw0s, hx', Ne.symm hx']; rfl
        exact ⟨h1, h2, h3, h4, h5⟩
      obtain ⟨s', g1, g2⟩ := hb
      exact ⟨s', happens_ext.mpr ⟨hc.1, hc.2, g1⟩, g2⟩
    | .ext t 0 (.float v :: m), _ =>
      have hb : ∃ s', Ends (sys a1 c) [((0, 0), .float v :: m)] { s with now := t } s' ∧ Holds tab ⟨p.place, p.array.set p.place v⟩ s' := by
        refine ⟨?s3, ?h3, ?_⟩
        case h3 => simp [lib_step, lib_tabwrites, key, tw0, h1]; rfl
        refine ⟨h1, ?_, fun k hk => ?_, h4, h5⟩
        · simp [St.setTab, h2]
        · simp [St.setTab, hk, h3 k hk]
      obtain ⟨s', g1, g2⟩ := hb
      exact ⟨s', happens_ext.mpr ⟨hc.1, hc.2, g1⟩, g2⟩
    | .ext t 1 (.bang :: m), _ =>
      have hb : ∃ s', Ends (sys a1 c) [((0, 1), .bang :: m)] { s with now := t } s' ∧ Holds tab p s' := by
        refine ⟨?s4, ?h4, ?_⟩
        case h4 => simp [lib_step, lib_tabwrites, tw0b]; rfl
        exact ⟨h1, h2, h3, h4, h5⟩
      obtain ⟨s', g1, g2⟩ := hb
      exact ⟨s', happens_ext.mpr ⟨hc.1, hc.2, g1⟩, g2⟩
    | .ext t 1 (.sym x :: m), _ =>
      have hb : ∃ s', Ends (sys a1 c) [((0, 1), .sym x :: m)] { s with now := t } s' ∧ Holds tab p s' := by
        refine ⟨?s5, ?h5, ?_⟩
        case h5 => simp [lib_step, lib_tabwrites, tw0s]; rfl
        exact ⟨h1, h2, h3, h4, h5⟩
      obtain ⟨s', g1, g2⟩ := hb
      exact ⟨s', happens_ext.mpr ⟨hc.1, hc.2, g1⟩, g2⟩
    | .ext t 1 (.float q :: m), _ =>
      by_cases hq : 0 ≤ q ∧ ⌊q⌋ < p.array.length
      · have hq' : 0 ≤ q ∧ ⌊q⌋.toNat < p.array.length := ⟨hq.1, by have := Int.floor_nonneg.mpr hq.1; omega⟩
        have hb : ∃ s', Ends (sys a1 c) [((0, 1), .float q :: m)] { s with now := t } s' ∧ Holds tab ⟨⌊q⌋.toNat, p.array⟩ s' := by
          refine ⟨?s6, ?h6, ?_⟩
          case h6 => simp [lib_step, lib_tabwrites, tw1, h2, hq']; rfl
          exact ⟨by simp [lib_step], h2, h3, h4, h5⟩
        obtain ⟨s', g1, g2⟩ := hb
        exact ⟨s', happens_ext.mpr ⟨hc.1, hc.2, g1⟩, by simpa only [Pen.on, if_pos hq] using g2⟩
      · have hq' : ¬ (0 ≤ q ∧ ⌊q⌋.toNat < p.array.length) := fun h => hq ⟨h.1, by have := Int.floor_nonneg.mpr h.1; omega⟩
        have hb : ∃ s', Ends (sys a1 c) [((0, 1), .float q :: m)] { s with now := t } s' ∧ Holds tab p s' := by
          refine ⟨?s7, ?h7, ?_⟩
          case h7 => simp [lib_step, lib_tabwrites, tw1', h2, hq']; rfl
          exact ⟨h1, h2, h3, h4, h5⟩
        obtain ⟨s', g1, g2⟩ := hb
        exact ⟨s', happens_ext.mpr ⟨hc.1, hc.2, g1⟩, by simpa only [Pen.on, if_neg hq] using g2⟩

/-- **C92** `[tabwrite]`: after every history the array is as the pen leaves it, no other array has changed and nothing has come out; it
never gets stuck -/
theorem does (M : Mach) (hM : Code a1 c M) (tab : Nat → List ℚ) :
    (∀ es, (∀ e ∈ es, Writes w (tab 0).length e) → ∀ s, Runs M drv (start c (nodes a1) tab) es s →
      s.tab 0 = (es.foldl Pen.on ⟨0, tab 0⟩).array ∧ (∀ k, k ≠ 0 → s.tab k = tab k) ∧ s.log = []) ∧
    (∃ s, Runs M drv (start c (nodes a1) tab) [] s) ∧
    ∀ es, (∀ e ∈ es, Writes w (tab 0).length e) → ∀ s, Runs M drv (start c (nodes a1) tab) es s → ∀ t i m, Writes w (tab 0).length (.ext t i m) → s.now ≤ t →
      ∃ s', Happens M drv (.ext t i m) s s' := by
  obtain ⟨S, hS, h⟩ := simulates (w := w) M hM tab
  refine ⟨fun es hf s hr => ?_, h.goes_on.1, fun es hf s hr t i m he ht => ?_⟩
  · have := hS _ _ (h.runs hf hr)
    exact ⟨this.2.1, this.2.2.1, this.2.2.2.2⟩
  · exact h.goes_on.2 es hf s hr _ he ⟨ht, by rw [(hS _ _ (h.runs hf hr)).2.2.2.1]; simp⟩

/-- **C92** the array keeps its size -/
theorem size (es : List Ev) (p : Pen) : (es.foldl Pen.on p).array.length = p.array.length := by
  induction es generalizing p with
  | nil => rfl
  | cons e es ih =>
    rw [List.foldl_cons, ih]
    unfold Pen.on
    split
    · simp
    · split <;> rfl
    · rfl

/-- **C92** whatever came before: a place the array has and then a number put this number there and nothing elsewhere -/
theorem put (es : List Ev) (p : Pen) (t : Nat) (q v : ℚ) (h0 : 0 ≤ q) (h : ⌊q⌋ < p.array.length) (k : Nat) :
    ((es ++ [Ev.ext t 1 [.float q], Ev.ext t 0 [.float v]]).foldl Pen.on p).array[k]? =
      if k = ⌊q⌋.toNat then some v else (es.foldl Pen.on p).array[k]? := by
  have hl := size es p
  have hq : 0 ≤ q ∧ ⌊q⌋ < (es.foldl Pen.on p).array.length := ⟨h0, by rw [hl]; exact h⟩
  have hk : ⌊q⌋.toNat < (es.foldl Pen.on p).array.length := by have := Int.floor_nonneg.mpr h0; omega
  simp only [List.foldl_append, List.foldl_cons, List.foldl_nil, Pen.on, if_pos hq, List.getElem?_set]
  by_cases he : k = ⌊q⌋.toNat
  · subst he; simp [hk]
  · simp [he, Ne.symm he]

/-- a place that the array does not have (here behind its end; Pd takes the last one) is not the new place: the number is written where the
one before was -/
theorem beside : (([Ev.ext 1 1 [.float 1], Ev.ext 2 0 [.float 5], Ev.ext 3 1 [.float 7], Ev.ext 4 0 [.float 9]] : List Ev).foldl Pen.on ⟨0, [0, 0, 0]⟩).array =
    [0, 9, 0] := by decide +kernel

end Tabwrite

/-! ### cases -/

namespace Example

/-- there are such programs, and what `[log]` does about numbers that have no logarithm (Pd: -1000) -/
theorem logs (c : Ctx) (tab : Nat → List ℚ) : ∃ M, Log.Code c M ∧ ∀ s,
    Runs M Log.drv (start c Log.nodes tab) [.ext 5 0 [.float (-3)], .ext 6 0 [.bang], .ext 7 0 [.float 2]] s →
      s.log = [(5, 0, [.float 0]), (7, 0, [.float (c.fn "log" 2)])] := by
  obtain ⟨M, hM⟩ := Log.code_exists c
  refine ⟨M, hM, fun s hr => ?_⟩
  rw [((Log.does M hM tab).same _ (by simp [One]) s hr).1]
  simp [Reacts.after, Reacts.step, apply1, show ¬ (0 : ℚ) < -3 from by decide +kernel]

/-- the messages of `Tabwrite.beside` are such messages, for an array of 3 and a SIMD width of 4 -/
theorem writes : ∀ e ∈ [Ev.ext 1 1 [.float 1], Ev.ext 2 0 [.float 5], Ev.ext 3 1 [.float 7], Ev.ext 4 0 [.float 9]], Writes 4 3 e := by
  have h1 : ⌊(1 : ℚ)⌋ = 1 := rfl
  have h7 : ⌊(7 : ℚ)⌋ = 7 := rfl
  intro e he
  simp only [List.mem_cons, List.not_mem_nil, or_false] at he
  rcases he with rfl | rfl | rfl | rfl <;> refine ⟨by decide, by simp, by simp, by simp, fun q hi hq => ?_⟩
  · cases hq; exact ⟨by decide +kernel, .inl (by rw [h1]; decide)⟩
  · cases hi
  · cases hq; exact ⟨by decide +kernel, .inr (by rw [h7]; decide)⟩
  · cases hi

end Example
end Verif.Lib
