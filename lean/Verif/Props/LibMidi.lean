import Mathlib.Tactic.Linarith
import Verif.Lib.Bendin
import Verif.Lib.Bendout
import Verif.Lib.Ctlin
import Verif.Lib.Ctlout
import Verif.Lib.Notein
import Verif.Lib.Noteout
import Verif.Lib.Pgmin
import Verif.Lib.Pgmout
import Verif.Lib.Polytouchin
import Verif.Lib.Polytouchout
import Verif.Lib.Touchin
import Verif.Lib.Touchout
import Verif.Props.LibSmall

/-!
# C72: the MIDI objects of the library

`[notein]`, `[ctlin]`, `[bendin]`, `[touchin]`, `[polytouchin]`, `[pgmin]` and the objects that send, as they are written in
hvcc/interpreters/pd2hv/libs/pd/*.pd: what comes out of them after every history of messages of the host (or of the patch), for all values
of their arguments.  `LibMidiHost.lean` puts this together with what the host wrapper does (C46).
-/

set_option linter.unusedSimpArgs false

namespace Verif.Lib

/-- channel `ch` (counted from 0, as the host sends it) is let through by the argument `a`: no argument (0) means all channels, else
channels are counted from 1, as in Pd -/
def Passes (a ch : ℚ) : Prop := (trunc a : ℚ) = 0 ∨ ch + 1 = trunc a

instance (a ch : ℚ) : Decidable (Passes a ch) := inferInstanceAs (Decidable (_ ∨ _))

/-- what an object that reads messages of two data bytes does: the channel goes out of the third outlet, then, if the channel is let
through, the second byte out of the second outlet and the first out of the first -/
def in3 (a : ℚ) : Reacts Unit where
  init := ()
  on _ _ _ m :=
    match m with
    | [.float d0, .float d1, .float ch] =>
      ((), (2, num1 (ch + 1)) :: if Passes a ch then [(1, num1 d1), (0, num1 d0)] else [])
    | _ => ((), [])

/-- what an object that reads messages of one value does: if the channel is let through it goes out of the second outlet, and then the value
(counted from `d`) out of the first -/
def in2 (d a : ℚ) : Reacts Unit where
  init := ()
  on _ _ _ m :=
    match m with
    | [.float v, .float ch] => ((), if Passes a ch then [(1, num1 (ch + 1)), (0, num1 (v + d))] else [])
    | _ => ((), [])

/-- messages of the host, two bytes and a channel -/
def Three : Ev → Prop
  | .ext _ 0 m => ∃ d0 d1 ch, m = [.float d0, .float d1, .float ch] ∧ 0 ≤ ch
  | .ext _ _ _ => False
  | .tick => True

/-- messages of the host, a value and a channel -/
def Two : Ev → Prop
  | .ext _ 0 m => ∃ v ch, m = [.float v, .float ch] ∧ 0 ≤ ch
  | .ext _ _ _ => False
  | .tick => True

namespace Notein

theorem inlet {e : Ev} (h : Three e) : Inlet e := by
  match e, h with
  | .ext _ 0 _, _ => exact Nat.zero_lt_succ _
  | .tick, _ => trivial

variable {a1 : ℚ} {c : Ctx} {s s' : St}

/-- what the state of the abstraction remembers -/
structure Mem (a : ℚ) (s : St) : Prop where
  k : num (s.mem 52) = trunc a
  g1 : num (s.mem 39) = if (trunc a : ℚ) = 0 then 1 else 0
  g2 : num (s.mem 44) = if (trunc a : ℚ) = 0 then 1 else 0

/-- **C72** `[notein a]` -/
theorem does (M : Mach) (hM : Code a1 c M) (tab : Nat → List ℚ) :
    Does M drv (start c (nodes a1) tab) Three (in3 a1) := by
  refine does_of_simulates (to_code hM (fun _ => inlet) (simulates_of_reacts (R := fun _ s => Mem a1 s) ?_ ?_))
    fun x s h => ⟨h.1.q, h.1.log⟩
  · have hb : ∃ s, Ends (sys a1 c) [((11, 0), [.bang])] (start c (nodes a1) tab) s ∧ Mem a1 s ∧ s.q = [] ∧ s.log = [] := by
      have hv : (start c (nodes a1) tab).mem 19 = [.float a1] := rfl
      have hq : (start c (nodes a1) tab).q = [] := rfl
      have hl : (start c (nodes a1) tab).log = [] := rfl
      have ht := Int.trunc_eq a1
      by_cases h : 0 < a1
      · rw [if_pos h] at ht
        refine ⟨?s0, ?h0, ?_⟩
        case h0 =>
          simp [lib_step, lib_notein, hv, Op.eval, tf, h, ht]
          rfl
        refine ⟨⟨?_, ?_, ?_⟩, ?_⟩ <;> simp [lib_step, ht, hq, hl]
      · rw [if_neg h] at ht
        refine ⟨?s0', ?h0', ?_⟩
        case h0' =>
          simp [lib_step, lib_notein, hv, Op.eval, tf, h, ht]
          rfl
        refine ⟨⟨?_, ?_, ?_⟩, ?_⟩ <;> simp [lib_step, ht, hq, hl]
    exact hb
  · intro g s t i m ⟨hk, h1, h2⟩ hq hf
    match i, hf with
    | 0, ⟨note, vel, ch, hm, hc⟩ =>
      subst hm
      have hne : ¬ (ch + 1 = 0) := by linarith
      have hmax : max (ch + 1) 1 = ch + 1 := max_eq_left (by linarith)
      have hb : ∃ s', Ends (sys a1 c) [((64, 0), [.float note, .float vel, .float ch])] { s with now := t } s' ∧ Mem a1 s' ∧ s'.q = [] ∧
          s'.log = s.log ++ ((in3 a1).on g t 0 [.float note, .float vel, .float ch]).2.map fun y => (t, y) := by
        by_cases h0 : (trunc a1 : ℚ) = 0
        · simp only [h0, if_true] at h1 h2 hk
          refine ⟨?s1, ?h1, ?_⟩
          case h1 =>
            simp [lib_step, lib_notein, hk, h1, h2, Op.eval, tf, hne, hmax]
            rfl
          refine ⟨⟨?_, ?_, ?_⟩, ?_⟩ <;> simp [lib_step, in3, Passes, hk, h0, h1, h2, hq, hmax]
        · simp only [h0, if_false] at h1 h2
          by_cases he : ch + 1 = trunc a1
          · have he' := he.symm
            refine ⟨?s2, ?h2, ?_⟩
            case h2 =>
              simp [lib_step, lib_notein, hk, h1, h2, Op.eval, tf, hne, hmax, he']
              rfl
            refine ⟨⟨?_, ?_, ?_⟩, ?_⟩ <;> simp [lib_step, in3, Passes, hk, h1, h2, hq, hmax, he', hne]
          · refine ⟨?s3, ?h3, ?_⟩
            case h3 =>
              simp [lib_step, lib_notein, hk, h1, h2, Op.eval, tf, hne, hmax, he]
              rfl
            refine ⟨⟨?_, ?_, ?_⟩, ?_⟩ <;> simp [lib_step, in3, Passes, hk, h0, h1, h2, hq, hmax, he]
      exact hb
end Notein

namespace Polytouchin

theorem inlet {e : Ev} (h : Three e) : Inlet e := by
  match e, h with
  | .ext _ 0 _, _ => exact Nat.zero_lt_succ _
  | .tick, _ => trivial

variable {a1 : ℚ} {c : Ctx} {s s' : St}

/-- what the state of the abstraction remembers -/
structure Mem (a : ℚ) (s : St) : Prop where
  k : num (s.mem 52) = trunc a
  g1 : num (s.mem 39) = if (trunc a : ℚ) = 0 then 1 else 0
  g2 : num (s.mem 44) = if (trunc a : ℚ) = 0 then 1 else 0

/-- **C72** `[polytouchin a]` -/
theorem does (M : Mach) (hM : Code a1 c M) (tab : Nat → List ℚ) :
    Does M drv (start c (nodes a1) tab) Three (in3 a1) := by
  refine does_of_simulates (to_code hM (fun _ => inlet) (simulates_of_reacts (R := fun _ s => Mem a1 s) ?_ ?_))
    fun x s h => ⟨h.1.q, h.1.log⟩
  · have hb : ∃ s, Ends (sys a1 c) [((11, 0), [.bang])] (start c (nodes a1) tab) s ∧ Mem a1 s ∧ s.q = [] ∧ s.log = [] := by
      have hv : (start c (nodes a1) tab).mem 19 = [.float a1] := rfl
      have hq : (start c (nodes a1) tab).q = [] := rfl
      have hl : (start c (nodes a1) tab).log = [] := rfl
      have ht := Int.trunc_eq a1
      by_cases h : 0 < a1
      · rw [if_pos h] at ht
        refine ⟨?s0, ?h0, ?_⟩
        case h0 =>
          simp [lib_step, lib_polytouchin, hv, Op.eval, tf, h, ht]
          rfl
        refine ⟨⟨?_, ?_, ?_⟩, ?_⟩ <;> simp [lib_step, ht, hq, hl]
      · rw [if_neg h] at ht
        refine ⟨?s0', ?h0', ?_⟩
        case h0' =>
          simp [lib_step, lib_polytouchin, hv, Op.eval, tf, h, ht]
          rfl
        refine ⟨⟨?_, ?_, ?_⟩, ?_⟩ <;> simp [lib_step, ht, hq, hl]
    exact hb
  · intro g s t i m ⟨hk, h1, h2⟩ hq hf
    match i, hf with
    | 0, ⟨note, vel, ch, hm, hc⟩ =>
      subst hm
      have hne : ¬ (ch + 1 = 0) := by linarith
      have hmax : max (ch + 1) 1 = ch + 1 := max_eq_left (by linarith)
      have hb : ∃ s', Ends (sys a1 c) [((64, 0), [.float note, .float vel, .float ch])] { s with now := t } s' ∧ Mem a1 s' ∧ s'.q = [] ∧
          s'.log = s.log ++ ((in3 a1).on g t 0 [.float note, .float vel, .float ch]).2.map fun y => (t, y) := by
        by_cases h0 : (trunc a1 : ℚ) = 0
        · simp only [h0, if_true] at h1 h2 hk
          refine ⟨?s1, ?h1, ?_⟩
          case h1 =>
            simp [lib_step, lib_polytouchin, hk, h1, h2, Op.eval, tf, hne, hmax]
            rfl
          refine ⟨⟨?_, ?_, ?_⟩, ?_⟩ <;> simp [lib_step, in3, Passes, hk, h0, h1, h2, hq, hmax]
        · simp only [h0, if_false] at h1 h2
          by_cases he : ch + 1 = trunc a1
          · have he' := he.symm
            refine ⟨?s2, ?h2, ?_⟩
            case h2 =>
              simp [lib_step, lib_polytouchin, hk, h1, h2, Op.eval, tf, hne, hmax, he']
              rfl
            refine ⟨⟨?_, ?_, ?_⟩, ?_⟩ <;> simp [lib_step, in3, Passes, hk, h1, h2, hq, hmax, he', hne]
          · refine ⟨?s3, ?h3, ?_⟩
            case h3 =>
              simp [lib_step, lib_polytouchin, hk, h1, h2, Op.eval, tf, hne, hmax, he]
              rfl
            refine ⟨⟨?_, ?_, ?_⟩, ?_⟩ <;> simp [lib_step, in3, Passes, hk, h0, h1, h2, hq, hmax, he]
      exact hb
end Polytouchin

namespace Bendin

theorem inlet {e : Ev} (h : Two e) : Inlet e := by
  match e, h with
  | .ext _ 0 _, _ => exact Nat.zero_lt_succ _
  | .tick, _ => trivial

variable {a1 : ℚ} {c : Ctx} {s s' : St}

/-- what the state of the abstraction remembers -/
structure Mem (a : ℚ) (s : St) : Prop where
  k : num (s.mem 43) = trunc a
  g1 : num (s.mem 36) = if (trunc a : ℚ) = 0 then 1 else 0
  g2 : num (s.mem 56) = if (trunc a : ℚ) = 0 then 1 else 0

/-- **C72** `[bendin a]` -/
theorem does (M : Mach) (hM : Code a1 c M) (tab : Nat → List ℚ) :
    Does M drv (start c (nodes a1) tab) Two (in2 0 a1) := by
  refine does_of_simulates (to_code hM (fun _ => inlet) (simulates_of_reacts (R := fun _ s => Mem a1 s) ?_ ?_))
    fun x s h => ⟨h.1.q, h.1.log⟩
  · have hb : ∃ s, Ends (sys a1 c) [((12, 0), [.bang])] (start c (nodes a1) tab) s ∧ Mem a1 s ∧ s.q = [] ∧ s.log = [] := by
      have hv : (start c (nodes a1) tab).mem 21 = [.float a1] := rfl
      have hq : (start c (nodes a1) tab).q = [] := rfl
      have hl : (start c (nodes a1) tab).log = [] := rfl
      have ht := Int.trunc_eq a1
      by_cases h : 0 < a1
      · rw [if_pos h] at ht
        refine ⟨?s0, ?h0, ?_⟩
        case h0 =>
          simp [lib_step, lib_bendin, hv, Op.eval, tf, h, ht]
          rfl
        refine ⟨⟨?_, ?_, ?_⟩, ?_⟩ <;> simp [lib_step, ht, hq, hl]
      · rw [if_neg h] at ht
        refine ⟨?s0', ?h0', ?_⟩
        case h0' =>
          simp [lib_step, lib_bendin, hv, Op.eval, tf, h, ht]
          rfl
        refine ⟨⟨?_, ?_, ?_⟩, ?_⟩ <;> simp [lib_step, ht, hq, hl]
    exact hb
  · intro g s t i m ⟨hk, h1, h2⟩ hq hf
    match i, hf with
    | 0, ⟨v, ch, hm, hc⟩ =>
      subst hm
      have hne : ¬ (ch + 1 = 0) := by linarith
      have hmax : max (ch + 1) 1 = ch + 1 := max_eq_left (by linarith)
      have hb : ∃ s', Ends (sys a1 c) [((60, 0), [.float v, .float ch])] { s with now := t } s' ∧ Mem a1 s' ∧ s'.q = [] ∧
          s'.log = s.log ++ ((in2 0 a1).on g t 0 [.float v, .float ch]).2.map fun y => (t, y) := by
        by_cases h0 : (trunc a1 : ℚ) = 0
        · simp only [h0, if_true] at h1 h2 hk
          refine ⟨?s1, ?h1, ?_⟩
          case h1 =>
            simp [lib_step, lib_bendin, hk, h1, h2, Op.eval, tf, hne, hmax]
            rfl
          refine ⟨⟨?_, ?_, ?_⟩, ?_⟩ <;> simp [lib_step, in2, Passes, hk, h0, h1, h2, hq, hmax]
        · simp only [h0, if_false] at h1 h2
          by_cases he : ch + 1 = trunc a1
          · have he' := he.symm
            refine ⟨?s2, ?h2, ?_⟩
            case h2 =>
              simp [lib_step, lib_bendin, hk, h1, h2, Op.eval, tf, hne, hmax, he']
              rfl
            refine ⟨⟨?_, ?_, ?_⟩, ?_⟩ <;> simp [lib_step, in2, Passes, hk, h1, h2, hq, hmax, he', hne]
          · refine ⟨?s3, ?h3, ?_⟩
            case h3 =>
              simp [lib_step, lib_bendin, hk, h1, h2, Op.eval, tf, hne, hmax, he]
              rfl
            refine ⟨⟨?_, ?_, ?_⟩, ?_⟩ <;> simp [lib_step, in2, Passes, hk, h0, h1, h2, hq, hmax, he]
      exact hb
end Bendin

namespace Touchin

theorem inlet {e : Ev} (h : Two e) : Inlet e := by
  match e, h with
  | .ext _ 0 _, _ => exact Nat.zero_lt_succ _
  | .tick, _ => trivial

variable {a1 : ℚ} {c : Ctx} {s s' : St}

/-- what the state of the abstraction remembers -/
structure Mem (a : ℚ) (s : St) : Prop where
  k : num (s.mem 42) = trunc a
  g1 : num (s.mem 35) = if (trunc a : ℚ) = 0 then 1 else 0
  g2 : num (s.mem 55) = if (trunc a : ℚ) = 0 then 1 else 0

/-- **C72** `[touchin a]` -/
theorem does (M : Mach) (hM : Code a1 c M) (tab : Nat → List ℚ) :
    Does M drv (start c (nodes a1) tab) Two (in2 0 a1) := by
  refine does_of_simulates (to_code hM (fun _ => inlet) (simulates_of_reacts (R := fun _ s => Mem a1 s) ?_ ?_))
    fun x s h => ⟨h.1.q, h.1.log⟩
  · have hb : ∃ s, Ends (sys a1 c) [((11, 0), [.bang])] (start c (nodes a1) tab) s ∧ Mem a1 s ∧ s.q = [] ∧ s.log = [] := by
      have hv : (start c (nodes a1) tab).mem 20 = [.float a1] := rfl
      have hq : (start c (nodes a1) tab).q = [] := rfl
      have hl : (start c (nodes a1) tab).log = [] := rfl
      have ht := Int.trunc_eq a1
      by_cases h : 0 < a1
      · rw [if_pos h] at ht
        refine ⟨?s0, ?h0, ?_⟩
        case h0 =>
          simp [lib_step, lib_touchin, hv, Op.eval, tf, h, ht]
          rfl
        refine ⟨⟨?_, ?_, ?_⟩, ?_⟩ <;> simp [lib_step, ht, hq, hl]
      · rw [if_neg h] at ht
        refine ⟨?s0', ?h0', ?_⟩
        case h0' =>
          simp [lib_step, lib_touchin, hv, Op.eval, tf, h, ht]
          rfl
        refine ⟨⟨?_, ?_, ?_⟩, ?_⟩ <;> simp [lib_step, ht, hq, hl]
    exact hb
  · intro g s t i m ⟨hk, h1, h2⟩ hq hf
    match i, hf with
    | 0, ⟨v, ch, hm, hc⟩ =>
      subst hm
      have hne : ¬ (ch + 1 = 0) := by linarith
      have hmax : max (ch + 1) 1 = ch + 1 := max_eq_left (by linarith)
      have hb : ∃ s', Ends (sys a1 c) [((60, 0), [.float v, .float ch])] { s with now := t } s' ∧ Mem a1 s' ∧ s'.q = [] ∧
          s'.log = s.log ++ ((in2 0 a1).on g t 0 [.float v, .float ch]).2.map fun y => (t, y) := by
        by_cases h0 : (trunc a1 : ℚ) = 0
        · simp only [h0, if_true] at h1 h2 hk
          refine ⟨?s1, ?h1, ?_⟩
          case h1 =>
            simp [lib_step, lib_touchin, hk, h1, h2, Op.eval, tf, hne, hmax]
            rfl
          refine ⟨⟨?_, ?_, ?_⟩, ?_⟩ <;> simp [lib_step, in2, Passes, hk, h0, h1, h2, hq, hmax]
        · simp only [h0, if_false] at h1 h2
          by_cases he : ch + 1 = trunc a1
          · have he' := he.symm
            refine ⟨?s2, ?h2, ?_⟩
            case h2 =>
              simp [lib_step, lib_touchin, hk, h1, h2, Op.eval, tf, hne, hmax, he']
              rfl
            refine ⟨⟨?_, ?_, ?_⟩, ?_⟩ <;> simp [lib_step, in2, Passes, hk, h1, h2, hq, hmax, he', hne]
          · refine ⟨?s3, ?h3, ?_⟩
            case h3 =>
              simp [lib_step, lib_touchin, hk, h1, h2, Op.eval, tf, hne, hmax, he]
              rfl
            refine ⟨⟨?_, ?_, ?_⟩, ?_⟩ <;> simp [lib_step, in2, Passes, hk, h0, h1, h2, hq, hmax, he]
      exact hb
end Touchin

namespace Pgmin

theorem inlet {e : Ev} (h : Two e) : Inlet e := by
  match e, h with
  | .ext _ 0 _, _ => exact Nat.zero_lt_succ _
  | .tick, _ => trivial

variable {a1 : ℚ} {c : Ctx} {s s' : St}

/-- what the state of the abstraction remembers -/
structure Mem (a : ℚ) (s : St) : Prop where
  k : num (s.mem 42) = trunc a
  g1 : num (s.mem 35) = if (trunc a : ℚ) = 0 then 1 else 0
  g2 : num (s.mem 55) = if (trunc a : ℚ) = 0 then 1 else 0

/-- **C72** `[pgmin a]`: programs are counted from 1 -/
theorem does (M : Mach) (hM : Code a1 c M) (tab : Nat → List ℚ) :
    Does M drv (start c (nodes a1) tab) Two (in2 1 a1) := by
  refine does_of_simulates (to_code hM (fun _ => inlet) (simulates_of_reacts (R := fun _ s => Mem a1 s) ?_ ?_))
    fun x s h => ⟨h.1.q, h.1.log⟩
  · have hb : ∃ s, Ends (sys a1 c) [((11, 0), [.bang])] (start c (nodes a1) tab) s ∧ Mem a1 s ∧ s.q = [] ∧ s.log = [] := by
      have hv : (start c (nodes a1) tab).mem 20 = [.float a1] := rfl
      have hq : (start c (nodes a1) tab).q = [] := rfl
      have hl : (start c (nodes a1) tab).log = [] := rfl
      have ht := Int.trunc_eq a1
      by_cases h : 0 < a1
      · rw [if_pos h] at ht
        refine ⟨?s0, ?h0, ?_⟩
        case h0 =>
          simp [lib_step, lib_pgmin, hv, Op.eval, tf, h, ht]
          rfl
        refine ⟨⟨?_, ?_, ?_⟩, ?_⟩ <;> simp [lib_step, ht, hq, hl]
      · rw [if_neg h] at ht
        refine ⟨?s0', ?h0', ?_⟩
        case h0' =>
          simp [lib_step, lib_pgmin, hv, Op.eval, tf, h, ht]
          rfl
        refine ⟨⟨?_, ?_, ?_⟩, ?_⟩ <;> simp [lib_step, ht, hq, hl]
    exact hb
  · intro g s t i m ⟨hk, h1, h2⟩ hq hf
    match i, hf with
    | 0, ⟨v, ch, hm, hc⟩ =>
      subst hm
      have hne : ¬ (ch + 1 = 0) := by linarith
      have hmax : max (ch + 1) 1 = ch + 1 := max_eq_left (by linarith)
      have hb : ∃ s', Ends (sys a1 c) [((61, 0), [.float v, .float ch])] { s with now := t } s' ∧ Mem a1 s' ∧ s'.q = [] ∧
          s'.log = s.log ++ ((in2 1 a1).on g t 0 [.float v, .float ch]).2.map fun y => (t, y) := by
        by_cases h0 : (trunc a1 : ℚ) = 0
        · simp only [h0, if_true] at h1 h2 hk
          refine ⟨?s1, ?h1, ?_⟩
          case h1 =>
            simp [lib_step, lib_pgmin, hk, h1, h2, Op.eval, tf, hne, hmax]
            rfl
          refine ⟨⟨?_, ?_, ?_⟩, ?_⟩ <;> simp [lib_step, in2, Passes, hk, h0, h1, h2, hq, hmax]
        · simp only [h0, if_false] at h1 h2
          by_cases he : ch + 1 = trunc a1
          · have he' := he.symm
            refine ⟨?s2, ?h2, ?_⟩
            case h2 =>
              simp [lib_step, lib_pgmin, hk, h1, h2, Op.eval, tf, hne, hmax, he']
              rfl
            refine ⟨⟨?_, ?_, ?_⟩, ?_⟩ <;> simp [lib_step, in2, Passes, hk, h1, h2, hq, hmax, he', hne]
          · refine ⟨?s3, ?h3, ?_⟩
            case h3 =>
              simp [lib_step, lib_pgmin, hk, h1, h2, Op.eval, tf, hne, hmax, he]
              rfl
            refine ⟨⟨?_, ?_, ?_⟩, ?_⟩ <;> simp [lib_step, in2, Passes, hk, h0, h1, h2, hq, hmax, he]
      exact hb
end Pgmin

namespace Ctlin

/-- what `[ctlin a b]` does with a message (value, controller, channel counted from 0) -/
def spec (a b : ℚ) : Reacts Unit where
  init := ()
  on _ _ _ m :=
    match m with
    | [.float v, .float cc, .float ch] =>
      ((), if (trunc a : ℚ) = 0 then
        [(2, num1 (ch + 1)), (1, num1 cc)] ++ (if cc = 0 ∧ (trunc b : ℚ) = 0 then [(1, num1 (ch + 1))] else []) ++ [(0, num1 v)]
      else if cc = trunc a then
        if (trunc b : ℚ) = 0 then [(1, num1 (ch + 1)), (0, num1 v)] else if ch + 1 = trunc b then [(0, num1 v)] else []
      else [])
    | _ => ((), [])

/-- messages of the host -/
def Fits : Ev → Prop
  | .ext _ 0 m => ∃ v cc ch, m = [.float v, .float cc, .float ch] ∧ 0 ≤ ch
  | .ext _ _ _ => False
  | .tick => True

theorem inlet {e : Ev} (h : Fits e) : Inlet e := by
  match e, h with
  | .ext _ 0 _, _ => exact Nat.zero_lt_succ _
  | .tick, _ => trivial

variable {a1 a2 : ℚ} {c : Ctx} {s s' : St}

/-- what the state of the abstraction remembers -/
structure Mem (a b : ℚ) (s : St) : Prop where
  ka : num (s.mem 55) = trunc a
  kb : num (s.mem 104) = trunc b
  g15 : num (s.mem 62) = if (trunc a : ℚ) = 0 then 1 else 0
  g16 : num (s.mem 67) = if (trunc a : ℚ) = 0 then 1 else 0
  g35 : num (s.mem 110) = if (trunc a : ℚ) = 0 then 1 else 0
  g20 : num (s.mem 82) = if (trunc a : ℚ) = 0 then 0 else 1
  g25 : num (s.mem 93) = if (trunc b : ℚ) = 0 then 1 else 0
  g26 : num (s.mem 98) = if (trunc b : ℚ) = 0 then 0 else 1
  g24 : (trunc b : ℚ) = 0 → num (s.mem 88) = 1

theorem trunc_cases (a : ℚ) : (0 < a ∧ (⌊a⌋ : ℚ) = trunc a) ∨ (¬ 0 < a ∧ (⌈a⌉ : ℚ) = trunc a) := by
  have ht := Int.trunc_eq a
  by_cases h : 0 < a
  · rw [if_pos h] at ht; exact .inl ⟨h, ht⟩
  · rw [if_neg h] at ht; exact .inr ⟨h, ht⟩

theorem boot (tab : Nat → List ℚ) : ∃ s, Ends (sys a1 a2 c) [((6, 0), [.bang])] (start c (nodes a1 a2) tab) s ∧ Mem a1 a2 s ∧ s.q = [] ∧
    s.log = [] := by
  have hv : (start c (nodes a1 a2) tab).mem 16 = [.float a1] := rfl
  have hw : (start c (nodes a1 a2) tab).mem 34 = [.float a2] := rfl
  have hg : (start c (nodes a1 a2) tab).mem 88 = [.float 1] := rfl
  have hq : (start c (nodes a1 a2) tab).q = [] := rfl
  have hl : (start c (nodes a1 a2) tab).log = [] := rfl
  rcases trunc_cases a1 with ⟨h, ht⟩ | ⟨h, ht⟩ <;> rcases trunc_cases a2 with ⟨h', ht'⟩ | ⟨h', ht'⟩
  · refine ⟨?s1, ?h1, ?_⟩
    case h1 =>
      simp [lib_step, lib_ctlin, hv, hw, Op.eval, tf, h, h', ht, ht']
      rfl
    refine ⟨⟨?_, ?_, ?_, ?_, ?_, ?_, ?_, ?_, ?_⟩, ?_⟩ <;> simp [lib_step, ht, ht', hq, hl, hg]
  · refine ⟨?s2, ?h2, ?_⟩
    case h2 =>
      simp [lib_step, lib_ctlin, hv, hw, Op.eval, tf, h, h', ht, ht']
      rfl
    refine ⟨⟨?_, ?_, ?_, ?_, ?_, ?_, ?_, ?_, ?_⟩, ?_⟩ <;> simp [lib_step, ht, ht', hq, hl, hg]
  · refine ⟨?s3, ?h3, ?_⟩
    case h3 =>
      simp [lib_step, lib_ctlin, hv, hw, Op.eval, tf, h, h', ht, ht']
      rfl
    refine ⟨⟨?_, ?_, ?_, ?_, ?_, ?_, ?_, ?_, ?_⟩, ?_⟩ <;> simp [lib_step, ht, ht', hq, hl, hg]
  · refine ⟨?s4, ?h4, ?_⟩
    case h4 =>
      simp [lib_step, lib_ctlin, hv, hw, Op.eval, tf, h, h', ht, ht']
      rfl
    refine ⟨⟨?_, ?_, ?_, ?_, ?_, ?_, ?_, ?_, ?_⟩, ?_⟩ <;> simp [lib_step, ht, ht', hq, hl, hg]

theorem run {t : ℕ} {v cc ch : ℚ} (h : Mem a1 a2 s) (hq : s.q = []) (hc : 0 ≤ ch) (g : Unit) :
    ∃ s', Ends (sys a1 a2 c) [((123, 0), [.float v, .float cc, .float ch])] { s with now := t } s' ∧ Mem a1 a2 s' ∧ s'.q = [] ∧
      s'.log = s.log ++ ((spec a1 a2).on g t 0 [.float v, .float cc, .float ch]).2.map fun y => (t, y) := by
  obtain ⟨ka, kb, g15, g16, g35, g20, g25, g26, g24⟩ := h
  have hne : ¬ (ch + 1 = 0) := by linarith
  have hmax : max (ch + 1) 1 = ch + 1 := max_eq_left (by linarith)
  by_cases ha : (trunc a1 : ℚ) = 0 <;> by_cases hb : (trunc a2 : ℚ) = 0 <;> by_cases hcc : cc = trunc a1 <;>
    by_cases hch : ch + 1 = trunc a2
  · exact absurd (hch.trans hb) hne
  · simp only [ha, hb, if_true, if_false, true_implies] at ka kb g15 g16 g35 g20 g25 g26 g24
    rw [ha] at hcc
    refine ⟨?s1, ?h1, ?_⟩
    case h1 =>
      simp [lib_step, lib_ctlin, ka, kb, g15, g16, g35, g20, g25, g26, g24, Op.eval, tf, hne, hmax, hcc, hch]
      rfl
    refine ⟨⟨?_, ?_, ?_, ?_, ?_, ?_, ?_, ?_, ?_⟩, ?_⟩ <;> simp [lib_step, spec, ka, kb, g15, g16, g35, g20, g25, g26, g24, ha, hb, hq, hmax, hcc, hch, hne]
  · exact absurd (hch.trans hb) hne
  · simp only [ha, hb, if_true, if_false, true_implies] at ka kb g15 g16 g35 g20 g25 g26 g24
    rw [ha] at hcc
    refine ⟨?s3, ?h3, ?_⟩
    case h3 =>
      simp [lib_step, lib_ctlin, ka, kb, g15, g16, g35, g20, g25, g26, g24, Op.eval, tf, hne, hmax, hcc, hch]
      rfl
    refine ⟨⟨?_, ?_, ?_, ?_, ?_, ?_, ?_, ?_, ?_⟩, ?_⟩ <;> simp [lib_step, spec, ka, kb, g15, g16, g35, g20, g25, g26, g24, ha, hb, hq, hmax, hcc, hch, hne]
  · simp only [ha, hb, if_true, if_false, true_implies] at ka kb g15 g16 g35 g20 g25 g26
    rw [ha] at hcc
    have hch := hch.symm
    refine ⟨?s4, ?h4, ?_⟩
    case h4 =>
      simp [lib_step, lib_ctlin, ka, kb, g15, g16, g35, g20, g25, g26, Op.eval, tf, hne, hmax, hcc, hch]
      rfl
    refine ⟨⟨?_, ?_, ?_, ?_, ?_, ?_, ?_, ?_, ?_⟩, ?_⟩ <;> simp [lib_step, spec, ka, kb, g15, g16, g35, g20, g25, g26, ha, hb, hq, hmax, hcc, hch, hne]
  · simp only [ha, hb, if_true, if_false, true_implies] at ka kb g15 g16 g35 g20 g25 g26
    rw [ha] at hcc
    refine ⟨?s5, ?h5, ?_⟩
    case h5 =>
      simp [lib_step, lib_ctlin, ka, kb, g15, g16, g35, g20, g25, g26, Op.eval, tf, hne, hmax, hcc, hch]
      rfl
    refine ⟨⟨?_, ?_, ?_, ?_, ?_, ?_, ?_, ?_, ?_⟩, ?_⟩ <;> simp [lib_step, spec, ka, kb, g15, g16, g35, g20, g25, g26, ha, hb, hq, hmax, hcc, hch, hne]
  · simp only [ha, hb, if_true, if_false, true_implies] at ka kb g15 g16 g35 g20 g25 g26
    rw [ha] at hcc
    have hch := hch.symm
    refine ⟨?s6, ?h6, ?_⟩
    case h6 =>
      simp [lib_step, lib_ctlin, ka, kb, g15, g16, g35, g20, g25, g26, Op.eval, tf, hne, hmax, hcc, hch]
      rfl
    refine ⟨⟨?_, ?_, ?_, ?_, ?_, ?_, ?_, ?_, ?_⟩, ?_⟩ <;> simp [lib_step, spec, ka, kb, g15, g16, g35, g20, g25, g26, ha, hb, hq, hmax, hcc, hch, hne]
  · simp only [ha, hb, if_true, if_false, true_implies] at ka kb g15 g16 g35 g20 g25 g26
    rw [ha] at hcc
    refine ⟨?s7, ?h7, ?_⟩
    case h7 =>
      simp [lib_step, lib_ctlin, ka, kb, g15, g16, g35, g20, g25, g26, Op.eval, tf, hne, hmax, hcc, hch]
      rfl
    refine ⟨⟨?_, ?_, ?_, ?_, ?_, ?_, ?_, ?_, ?_⟩, ?_⟩ <;> simp [lib_step, spec, ka, kb, g15, g16, g35, g20, g25, g26, ha, hb, hq, hmax, hcc, hch, hne]
  · exact absurd (hch.trans hb) hne
  · simp only [ha, hb, if_true, if_false, true_implies] at ka kb g15 g16 g35 g20 g25 g26 g24
    subst hcc
    refine ⟨?s9, ?h9, ?_⟩
    case h9 =>
      simp [lib_step, lib_ctlin, ka, kb, g15, g16, g35, g20, g25, g26, g24, Op.eval, tf, hne, hmax, hch]
      rfl
    refine ⟨⟨?_, ?_, ?_, ?_, ?_, ?_, ?_, ?_, ?_⟩, ?_⟩ <;> simp [lib_step, spec, ka, kb, g15, g16, g35, g20, g25, g26, g24, ha, hb, hq, hmax, hch, hne]
  · exact absurd (hch.trans hb) hne
  · simp only [ha, hb, if_true, if_false, true_implies] at ka kb g15 g16 g35 g20 g25 g26 g24
    refine ⟨?s11, ?h11, ?_⟩
    case h11 =>
      simp [lib_step, lib_ctlin, ka, kb, g15, g16, g35, g20, g25, g26, g24, Op.eval, tf, hne, hmax, hcc, hch]
      rfl
    refine ⟨⟨?_, ?_, ?_, ?_, ?_, ?_, ?_, ?_, ?_⟩, ?_⟩ <;> simp [lib_step, spec, ka, kb, g15, g16, g35, g20, g25, g26, g24, ha, hb, hq, hmax, hcc, hch, hne]
  · simp only [ha, hb, if_true, if_false, true_implies] at ka kb g15 g16 g35 g20 g25 g26
    subst hcc
    have hch := hch.symm
    refine ⟨?s12, ?h12, ?_⟩
    case h12 =>
      simp [lib_step, lib_ctlin, ka, kb, g15, g16, g35, g20, g25, g26, Op.eval, tf, hne, hmax, hch]
      rfl
    refine ⟨⟨?_, ?_, ?_, ?_, ?_, ?_, ?_, ?_, ?_⟩, ?_⟩ <;> simp [lib_step, spec, ka, kb, g15, g16, g35, g20, g25, g26, ha, hb, hq, hmax, hch, hne]
  · simp only [ha, hb, if_true, if_false, true_implies] at ka kb g15 g16 g35 g20 g25 g26
    subst hcc
    refine ⟨?s13, ?h13, ?_⟩
    case h13 =>
      simp [lib_step, lib_ctlin, ka, kb, g15, g16, g35, g20, g25, g26, Op.eval, tf, hne, hmax, hch]
      rfl
    refine ⟨⟨?_, ?_, ?_, ?_, ?_, ?_, ?_, ?_, ?_⟩, ?_⟩ <;> simp [lib_step, spec, ka, kb, g15, g16, g35, g20, g25, g26, ha, hb, hq, hmax, hch, hne]
  · simp only [ha, hb, if_true, if_false, true_implies] at ka kb g15 g16 g35 g20 g25 g26
    have hch := hch.symm
    refine ⟨?s14, ?h14, ?_⟩
    case h14 =>
      simp [lib_step, lib_ctlin, ka, kb, g15, g16, g35, g20, g25, g26, Op.eval, tf, hne, hmax, hcc, hch]
      rfl
    refine ⟨⟨?_, ?_, ?_, ?_, ?_, ?_, ?_, ?_, ?_⟩, ?_⟩ <;> simp [lib_step, spec, ka, kb, g15, g16, g35, g20, g25, g26, ha, hb, hq, hmax, hcc, hch, hne]
  · simp only [ha, hb, if_true, if_false, true_implies] at ka kb g15 g16 g35 g20 g25 g26
    refine ⟨?s15, ?h15, ?_⟩
    case h15 =>
      simp [lib_step, lib_ctlin, ka, kb, g15, g16, g35, g20, g25, g26, Op.eval, tf, hne, hmax, hcc, hch]
      rfl
    refine ⟨⟨?_, ?_, ?_, ?_, ?_, ?_, ?_, ?_, ?_⟩, ?_⟩ <;> simp [lib_step, spec, ka, kb, g15, g16, g35, g20, g25, g26, ha, hb, hq, hmax, hcc, hch, hne]
/-- **C72** `[ctlin a b]` -/
theorem does (M : Mach) (hM : Code a1 a2 c M) (tab : Nat → List ℚ) :
    Does M drv (start c (nodes a1 a2) tab) Fits (spec a1 a2) := by
  refine does_of_simulates (to_code hM (fun _ => inlet) (simulates_of_reacts (R := fun _ s => Mem a1 a2 s) ?_ ?_))
    fun x s h => ⟨h.1.q, h.1.log⟩
  · exact boot tab
  · intro g s t i m h hq hf
    match i, hf with
    | 0, ⟨v, cc, ch, hm, hc⟩ =>
      subst hm
      exact run h hq hc g

end Ctlin

/-- what an object that sends messages of two data bytes does: a number at the first inlet is sent with the number that came last at the
second inlet (`d1` at first) and the channel that came last at the third (`ch` at first), which is counted from 1 there and from 0 in the
message. Further elements of a message at the first inlet replace what came at the others -- the third one is not counted from 1. -/
def out3 (d1 ch : ℚ) : Reacts (ℚ × ℚ × ℚ) where
  init := (0, d1, max (ch - 1) 0)
  on s _ i m :=
    match i, m with
    | 0, [.float x] => ((x, s.2), [(0, [.float x, .float s.2.1, .float s.2.2])])
    | 0, [.float x, .float y] => ((x, y, s.2.2), [(0, [.float x, .float y, .float s.2.2])])
    | 0, [.float x, .float y, .float z] => ((x, y, z), [(0, [.float x, .float y, .float z])])
    | 0, [.bang] => (s, [(0, [.float s.1, .float s.2.1, .float s.2.2])])
    | 1, [.float y] => ((s.1, y, s.2.2), [])
    | 2, [.float z] => ((s.1, s.2.1, max (z - 1) 0), [])
    | _, _ => (s, [])

/-- messages for it -/
def Out3 : Ev → Prop
  | .ext _ 0 m => (∃ x, m = [.float x]) ∨ (∃ x y, m = [.float x, .float y]) ∨ (∃ x y z, m = [.float x, .float y, .float z]) ∨ m = [.bang]
  | .ext _ 1 m => ∃ x, m = [.float x]
  | .ext _ 2 m => ∃ x, m = [.float x]
  | .ext _ _ _ => False
  | .tick => True

/-- what an object that sends messages of one value does: a number `x` at the first inlet is sent as `f x` with the channel that came last at
the second -/
def out2 (f : ℚ → ℚ) (ch : ℚ) : Reacts ℚ where
  init := max (ch - 1) 0
  on s _ i m :=
    match i, m with
    | 0, [.float x] => (s, [(0, [.float (f x), .float s])])
    | 1, [.float z] => (max (z - 1) 0, [])
    | _, _ => (s, [])

/-- messages for it -/
def Out2 : Ev → Prop
  | .ext _ 0 m => ∃ x, m = [.float x]
  | .ext _ 1 m => ∃ x, m = [.float x]
  | .ext _ _ _ => False
  | .tick => True

namespace Noteout

theorem inlet {e : Ev} (h : Out3 e) : Inlet e := by
  match e, h with
  | .ext _ 0 _, _ => exact (by decide : 0 < 3)
  | .ext _ 1 _, _ => exact (by decide : 1 < 3)
  | .ext _ 2 _, _ => exact (by decide : 2 < 3)
  | .tick, _ => trivial

variable {a1 : ℚ} {c : Ctx}

/-- what the state of the abstraction remembers -/
def Mem (x : ℚ × ℚ × ℚ) (s : St) : Prop := s.mem 1 = [.float x.1, .float x.2.1, .float x.2.2]

/-- **C72** `[noteout a]` -/
theorem does (M : Mach) (hM : Code a1 c M) (tab : Nat → List ℚ) :
    Does M drv (start c (nodes a1) tab) Out3 (out3 0 a1) := by
  refine does_of_simulates (to_code hM (fun _ => inlet) (simulates_of_reacts (R := Mem) ?_ ?_))
    fun x s h => ⟨h.1.q, h.1.log⟩
  · have hb : ∃ s, Ends (sys a1 c) [((7, 0), [.bang])] (start c (nodes a1) tab) s ∧ Mem (out3 0 a1).init s ∧ s.q = [] ∧ s.log = [] := by
      have hv0 : (start c (nodes a1) tab).mem 9 = [.float a1] := rfl
      have hp : (start c (nodes a1) tab).mem 1 = [.float 0, .float 0, .float 0] := rfl
      have hq : (start c (nodes a1) tab).q = [] := rfl
      have hl : (start c (nodes a1) tab).log = [] := rfl
      refine ⟨?s0, ?h0, ?_⟩
      case h0 =>
        simp [lib_step, lib_noteout, hv0, hp, Op.eval]
        rfl
      refine ⟨?_, ?_⟩ <;> simp [lib_step, Mem, out3, hp, hq, hl]
    exact hb
  · intro x s t i m h hq hf
    have h : s.mem 1 = [.float x.1, .float x.2.1, .float x.2.2] := h
    match i, hf with
    | 0, .inl ⟨p, hm⟩ =>
      subst hm
      have : ∃ s', Ends (sys a1 c) [((0, 0), [.float p])] { s with now := t } s' ∧ Mem ((out3 0 a1).on x t 0 [.float p]).1 s' ∧ s'.q = [] ∧
          s'.log = s.log ++ ((out3 0 a1).on x t 0 [.float p]).2.map fun y => (t, y) := by
        refine ⟨?s1, ?h1, ?_⟩
        case h1 =>
          simp [lib_step, lib_noteout, h, Op.eval, overlay, List.set]
          rfl
        refine ⟨?_, ?_⟩ <;> simp [lib_step, out3, Mem, overlay, List.set, h, hq]
      exact this
    | 0, .inr (.inl ⟨p, r, hm⟩) =>
      subst hm
      have : ∃ s', Ends (sys a1 c) [((0, 0), [.float p, .float r])] { s with now := t } s' ∧ Mem ((out3 0 a1).on x t 0 [.float p, .float r]).1 s' ∧ s'.q = [] ∧
          s'.log = s.log ++ ((out3 0 a1).on x t 0 [.float p, .float r]).2.map fun y => (t, y) := by
        refine ⟨?s2, ?h2, ?_⟩
        case h2 =>
          simp [lib_step, lib_noteout, h, Op.eval, overlay, List.set]
          rfl
        refine ⟨?_, ?_⟩ <;> simp [lib_step, out3, Mem, overlay, List.set, h, hq]
      exact this
    | 0, .inr (.inr (.inl ⟨p, r, u, hm⟩)) =>
      subst hm
      have : ∃ s', Ends (sys a1 c) [((0, 0), [.float p, .float r, .float u])] { s with now := t } s' ∧ Mem ((out3 0 a1).on x t 0 [.float p, .float r, .float u]).1 s' ∧ s'.q = [] ∧
          s'.log = s.log ++ ((out3 0 a1).on x t 0 [.float p, .float r, .float u]).2.map fun y => (t, y) := by
        refine ⟨?s3, ?h3, ?_⟩
        case h3 =>
          simp [lib_step, lib_noteout, h, Op.eval, overlay, List.set]
          rfl
        refine ⟨?_, ?_⟩ <;> simp [lib_step, out3, Mem, overlay, List.set, h, hq]
      exact this
    | 0, .inr (.inr (.inr hm)) =>
      subst hm
      have : ∃ s', Ends (sys a1 c) [((0, 0), [.bang])] { s with now := t } s' ∧ Mem ((out3 0 a1).on x t 0 [.bang]).1 s' ∧ s'.q = [] ∧
          s'.log = s.log ++ ((out3 0 a1).on x t 0 [.bang]).2.map fun y => (t, y) := by
        refine ⟨?s4, ?h4, ?_⟩
        case h4 =>
          simp [lib_step, lib_noteout, h, Op.eval, overlay, List.set]
          rfl
        refine ⟨?_, ?_⟩ <;> simp [lib_step, out3, Mem, overlay, List.set, h, hq]
      exact this
    | 1, ⟨p, hm⟩ =>
      subst hm
      have : ∃ s', Ends (sys a1 c) [((0, 1), [.float p])] { s with now := t } s' ∧ Mem ((out3 0 a1).on x t 1 [.float p]).1 s' ∧ s'.q = [] ∧
          s'.log = s.log ++ ((out3 0 a1).on x t 1 [.float p]).2.map fun y => (t, y) := by
        refine ⟨?s5, ?h5, ?_⟩
        case h5 =>
          simp [lib_step, lib_noteout, h, Op.eval, overlay, List.set]
          rfl
        refine ⟨?_, ?_⟩ <;> simp [lib_step, out3, Mem, overlay, List.set, h, hq]
      exact this
    | 2, ⟨p, hm⟩ =>
      subst hm
      have : ∃ s', Ends (sys a1 c) [((0, 2), [.float p])] { s with now := t } s' ∧ Mem ((out3 0 a1).on x t 2 [.float p]).1 s' ∧ s'.q = [] ∧
          s'.log = s.log ++ ((out3 0 a1).on x t 2 [.float p]).2.map fun y => (t, y) := by
        refine ⟨?s6, ?h6, ?_⟩
        case h6 =>
          simp [lib_step, lib_noteout, h, Op.eval, overlay, List.set]
          rfl
        refine ⟨?_, ?_⟩ <;> simp [lib_step, out3, Mem, overlay, List.set, h, hq]
      exact this
end Noteout

namespace Ctlout

theorem inlet {e : Ev} (h : Out3 e) : Inlet e := by
  match e, h with
  | .ext _ 0 _, _ => exact (by decide : 0 < 3)
  | .ext _ 1 _, _ => exact (by decide : 1 < 3)
  | .ext _ 2 _, _ => exact (by decide : 2 < 3)
  | .tick, _ => trivial

variable {a1 a2 : ℚ} {c : Ctx}

/-- what the state of the abstraction remembers -/
def Mem (x : ℚ × ℚ × ℚ) (s : St) : Prop := s.mem 1 = [.float x.1, .float x.2.1, .float x.2.2]

/-- **C72** `[ctlout a b]` -/
theorem does (M : Mach) (hM : Code a1 a2 c M) (tab : Nat → List ℚ) :
    Does M drv (start c (nodes a1 a2) tab) Out3 (out3 a1 a2) := by
  refine does_of_simulates (to_code hM (fun _ => inlet) (simulates_of_reacts (R := Mem) ?_ ?_))
    fun x s h => ⟨h.1.q, h.1.log⟩
  · have hb : ∃ s, Ends (sys a1 a2 c) [((4, 0), [.bang])] (start c (nodes a1 a2) tab) s ∧ Mem (out3 a1 a2).init s ∧ s.q = [] ∧ s.log = [] := by
      have hv0 : (start c (nodes a1 a2) tab).mem 9 = [.float a2] := rfl
      have hv1 : (start c (nodes a1 a2) tab).mem 15 = [.float a1] := rfl
      have hp : (start c (nodes a1 a2) tab).mem 1 = [.float 0, .float 0, .float 0] := rfl
      have hq : (start c (nodes a1 a2) tab).q = [] := rfl
      have hl : (start c (nodes a1 a2) tab).log = [] := rfl
      refine ⟨?s0, ?h0, ?_⟩
      case h0 =>
        simp [lib_step, lib_ctlout, hv0, hv1, hp, Op.eval]
        rfl
      refine ⟨?_, ?_⟩ <;> simp [lib_step, Mem, out3, hp, hq, hl]
    exact hb
  · intro x s t i m h hq hf
    have h : s.mem 1 = [.float x.1, .float x.2.1, .float x.2.2] := h
    match i, hf with
    | 0, .inl ⟨p, hm⟩ =>
      subst hm
      have : ∃ s', Ends (sys a1 a2 c) [((0, 0), [.float p])] { s with now := t } s' ∧ Mem ((out3 a1 a2).on x t 0 [.float p]).1 s' ∧ s'.q = [] ∧
          s'.log = s.log ++ ((out3 a1 a2).on x t 0 [.float p]).2.map fun y => (t, y) := by
        refine ⟨?s1, ?h1, ?_⟩
        case h1 =>
          simp [lib_step, lib_ctlout, h, Op.eval, overlay, List.set]
          rfl
        refine ⟨?_, ?_⟩ <;> simp [lib_step, out3, Mem, overlay, List.set, h, hq]
      exact this
    | 0, .inr (.inl ⟨p, r, hm⟩) =>
      subst hm
      have : ∃ s', Ends (sys a1 a2 c) [((0, 0), [.float p, .float r])] { s with now := t } s' ∧ Mem ((out3 a1 a2).on x t 0 [.float p, .float r]).1 s' ∧ s'.q = [] ∧
          s'.log = s.log ++ ((out3 a1 a2).on x t 0 [.float p, .float r]).2.map fun y => (t, y) := by
        refine ⟨?s2, ?h2, ?_⟩
        case h2 =>
          simp [lib_step, lib_ctlout, h, Op.eval, overlay, List.set]
          rfl
        refine ⟨?_, ?_⟩ <;> simp [lib_step, out3, Mem, overlay, List.set, h, hq]
      exact this
    | 0, .inr (.inr (.inl ⟨p, r, u, hm⟩)) =>
      subst hm
      have : ∃ s', Ends (sys a1 a2 c) [((0, 0), [.float p, .float r, .float u])] { s with now := t } s' ∧ Mem ((out3 a1 a2).on x t 0 [.float p, .float r, .float u]).1 s' ∧ s'.q = [] ∧
          s'.log = s.log ++ ((out3 a1 a2).on x t 0 [.float p, .float r, .float u]).2.map fun y => (t, y) := by
        refine ⟨?s3, ?h3, ?_⟩
        case h3 =>
          simp [lib_step, lib_ctlout, h, Op.eval, overlay, List.set]
          rfl
        refine ⟨?_, ?_⟩ <;> simp [lib_step, out3, Mem, overlay, List.set, h, hq]
      exact this
    | 0, .inr (.inr (.inr hm)) =>
      subst hm
      have : ∃ s', Ends (sys a1 a2 c) [((0, 0), [.bang])] { s with now := t } s' ∧ Mem ((out3 a1 a2).on x t 0 [.bang]).1 s' ∧ s'.q = [] ∧
          s'.log = s.log ++ ((out3 a1 a2).on x t 0 [.bang]).2.map fun y => (t, y) := by
        refine ⟨?s4, ?h4, ?_⟩
        case h4 =>
          simp [lib_step, lib_ctlout, h, Op.eval, overlay, List.set]
          rfl
        refine ⟨?_, ?_⟩ <;> simp [lib_step, out3, Mem, overlay, List.set, h, hq]
      exact this
    | 1, ⟨p, hm⟩ =>
      subst hm
      have : ∃ s', Ends (sys a1 a2 c) [((0, 1), [.float p])] { s with now := t } s' ∧ Mem ((out3 a1 a2).on x t 1 [.float p]).1 s' ∧ s'.q = [] ∧
          s'.log = s.log ++ ((out3 a1 a2).on x t 1 [.float p]).2.map fun y => (t, y) := by
        refine ⟨?s5, ?h5, ?_⟩
        case h5 =>
          simp [lib_step, lib_ctlout, h, Op.eval, overlay, List.set]
          rfl
        refine ⟨?_, ?_⟩ <;> simp [lib_step, out3, Mem, overlay, List.set, h, hq]
      exact this
    | 2, ⟨p, hm⟩ =>
      subst hm
      have : ∃ s', Ends (sys a1 a2 c) [((0, 2), [.float p])] { s with now := t } s' ∧ Mem ((out3 a1 a2).on x t 2 [.float p]).1 s' ∧ s'.q = [] ∧
          s'.log = s.log ++ ((out3 a1 a2).on x t 2 [.float p]).2.map fun y => (t, y) := by
        refine ⟨?s6, ?h6, ?_⟩
        case h6 =>
          simp [lib_step, lib_ctlout, h, Op.eval, overlay, List.set]
          rfl
        refine ⟨?_, ?_⟩ <;> simp [lib_step, out3, Mem, overlay, List.set, h, hq]
      exact this
end Ctlout

namespace Polytouchout

theorem inlet {e : Ev} (h : Out3 e) : Inlet e := by
  match e, h with
  | .ext _ 0 _, _ => exact (by decide : 0 < 3)
  | .ext _ 1 _, _ => exact (by decide : 1 < 3)
  | .ext _ 2 _, _ => exact (by decide : 2 < 3)
  | .tick, _ => trivial

variable {a1 : ℚ} {c : Ctx}

/-- what the state of the abstraction remembers -/
def Mem (x : ℚ × ℚ × ℚ) (s : St) : Prop := s.mem 1 = [.float x.1, .float x.2.1, .float x.2.2]

/-- **C72** `[polytouchout a]` -/
theorem does (M : Mach) (hM : Code a1 c M) (tab : Nat → List ℚ) :
    Does M drv (start c (nodes a1) tab) Out3 (out3 0 a1) := by
  refine does_of_simulates (to_code hM (fun _ => inlet) (simulates_of_reacts (R := Mem) ?_ ?_))
    fun x s h => ⟨h.1.q, h.1.log⟩
  · have hb : ∃ s, Ends (sys a1 c) [((4, 0), [.bang])] (start c (nodes a1) tab) s ∧ Mem (out3 0 a1).init s ∧ s.q = [] ∧ s.log = [] := by
      have hv0 : (start c (nodes a1) tab).mem 6 = [.float a1] := rfl
      have hp : (start c (nodes a1) tab).mem 1 = [.float 0, .float 0, .float 0] := rfl
      have hq : (start c (nodes a1) tab).q = [] := rfl
      have hl : (start c (nodes a1) tab).log = [] := rfl
      refine ⟨?s0, ?h0, ?_⟩
      case h0 =>
        simp [lib_step, lib_polytouchout, hv0, hp, Op.eval]
        rfl
      refine ⟨?_, ?_⟩ <;> simp [lib_step, Mem, out3, hp, hq, hl]
    exact hb
  · intro x s t i m h hq hf
    have h : s.mem 1 = [.float x.1, .float x.2.1, .float x.2.2] := h
    match i, hf with
    | 0, .inl ⟨p, hm⟩ =>
      subst hm
      have : ∃ s', Ends (sys a1 c) [((0, 0), [.float p])] { s with now := t } s' ∧ Mem ((out3 0 a1).on x t 0 [.float p]).1 s' ∧ s'.q = [] ∧
          s'.log = s.log ++ ((out3 0 a1).on x t 0 [.float p]).2.map fun y => (t, y) := by
        refine ⟨?s1, ?h1, ?_⟩
        case h1 =>
          simp [lib_step, lib_polytouchout, h, Op.eval, overlay, List.set]
          rfl
        refine ⟨?_, ?_⟩ <;> simp [lib_step, out3, Mem, overlay, List.set, h, hq]
      exact this
    | 0, .inr (.inl ⟨p, r, hm⟩) =>
      subst hm
      have : ∃ s', Ends (sys a1 c) [((0, 0), [.float p, .float r])] { s with now := t } s' ∧ Mem ((out3 0 a1).on x t 0 [.float p, .float r]).1 s' ∧ s'.q = [] ∧
          s'.log = s.log ++ ((out3 0 a1).on x t 0 [.float p, .float r]).2.map fun y => (t, y) := by
        refine ⟨?s2, ?h2, ?_⟩
        case h2 =>
          simp [lib_step, lib_polytouchout, h, Op.eval, overlay, List.set]
          rfl
        refine ⟨?_, ?_⟩ <;> simp [lib_step, out3, Mem, overlay, List.set, h, hq]
      exact this
    | 0, .inr (.inr (.inl ⟨p, r, u, hm⟩)) =>
      subst hm
      have : ∃ s', Ends (sys a1 c) [((0, 0), [.float p, .float r, .float u])] { s with now := t } s' ∧ Mem ((out3 0 a1).on x t 0 [.float p, .float r, .float u]).1 s' ∧ s'.q = [] ∧
          s'.log = s.log ++ ((out3 0 a1).on x t 0 [.float p, .float r, .float u]).2.map fun y => (t, y) := by
        refine ⟨?s3, ?h3, ?_⟩
        case h3 =>
          simp [lib_step, lib_polytouchout, h, Op.eval, overlay, List.set]
          rfl
        refine ⟨?_, ?_⟩ <;> simp [lib_step, out3, Mem, overlay, List.set, h, hq]
      exact this
    | 0, .inr (.inr (.inr hm)) =>
      subst hm
      have : ∃ s', Ends (sys a1 c) [((0, 0), [.bang])] { s with now := t } s' ∧ Mem ((out3 0 a1).on x t 0 [.bang]).1 s' ∧ s'.q = [] ∧
          s'.log = s.log ++ ((out3 0 a1).on x t 0 [.bang]).2.map fun y => (t, y) := by
        refine ⟨?s4, ?h4, ?_⟩
        case h4 =>
          simp [lib_step, lib_polytouchout, h, Op.eval, overlay, List.set]
          rfl
        refine ⟨?_, ?_⟩ <;> simp [lib_step, out3, Mem, overlay, List.set, h, hq]
      exact this
    | 1, ⟨p, hm⟩ =>
      subst hm
      have : ∃ s', Ends (sys a1 c) [((0, 1), [.float p])] { s with now := t } s' ∧ Mem ((out3 0 a1).on x t 1 [.float p]).1 s' ∧ s'.q = [] ∧
          s'.log = s.log ++ ((out3 0 a1).on x t 1 [.float p]).2.map fun y => (t, y) := by
        refine ⟨?s5, ?h5, ?_⟩
        case h5 =>
          simp [lib_step, lib_polytouchout, h, Op.eval, overlay, List.set]
          rfl
        refine ⟨?_, ?_⟩ <;> simp [lib_step, out3, Mem, overlay, List.set, h, hq]
      exact this
    | 2, ⟨p, hm⟩ =>
      subst hm
      have : ∃ s', Ends (sys a1 c) [((0, 2), [.float p])] { s with now := t } s' ∧ Mem ((out3 0 a1).on x t 2 [.float p]).1 s' ∧ s'.q = [] ∧
          s'.log = s.log ++ ((out3 0 a1).on x t 2 [.float p]).2.map fun y => (t, y) := by
        refine ⟨?s6, ?h6, ?_⟩
        case h6 =>
          simp [lib_step, lib_polytouchout, h, Op.eval, overlay, List.set]
          rfl
        refine ⟨?_, ?_⟩ <;> simp [lib_step, out3, Mem, overlay, List.set, h, hq]
      exact this
end Polytouchout

namespace Bendout

theorem inlet {e : Ev} (h : Out2 e) : Inlet e := by
  match e, h with
  | .ext _ 0 _, _ => exact (by decide : 0 < 2)
  | .ext _ 1 _, _ => exact (by decide : 1 < 2)
  | .tick, _ => trivial

variable {a1 : ℚ} {c : Ctx}

/-- what the state of the abstraction remembers -/
def Mem (x : ℚ) (s : St) : Prop := ∃ v, s.mem 1 = [.float v, .float x]

/-- **C72** `[bendout a]`: 0 is the middle of the wheel at the inlet -/
theorem does (M : Mach) (hM : Code a1 c M) (tab : Nat → List ℚ) :
    Does M drv (start c (nodes a1) tab) Out2 (out2 (· + 8192) a1) := by
  refine does_of_simulates (to_code hM (fun _ => inlet) (simulates_of_reacts (R := Mem) ?_ ?_))
    fun x s h => ⟨h.1.q, h.1.log⟩
  · have hb : ∃ s, Ends (sys a1 c) [((10, 0), [.bang])] (start c (nodes a1) tab) s ∧ Mem (out2 (· + 8192) a1).init s ∧ s.q = [] ∧ s.log = [] := by
      have hv0 : (start c (nodes a1) tab).mem 4 = [.float a1] := rfl
      have hp : (start c (nodes a1) tab).mem 1 = [.float 0, .float 0] := rfl
      have hq : (start c (nodes a1) tab).q = [] := rfl
      have hl : (start c (nodes a1) tab).log = [] := rfl
      refine ⟨?s0, ?h0, ?_⟩
      case h0 =>
        simp [lib_step, lib_bendout, hv0, hp, Op.eval]
        rfl
      refine ⟨?_, ?_⟩ <;> simp [lib_step, Mem, out2, hp, hq, hl]
    exact hb
  · intro x s t i m ⟨v, h⟩ hq hf
    match i, hf with
    | 0, ⟨p, hm⟩ =>
      subst hm
      have : ∃ s', Ends (sys a1 c) [((0, 0), [.float p])] { s with now := t } s' ∧ Mem ((out2 (· + 8192) a1).on x t 0 [.float p]).1 s' ∧ s'.q = [] ∧
          s'.log = s.log ++ ((out2 (· + 8192) a1).on x t 0 [.float p]).2.map fun y => (t, y) := by
        refine ⟨?s1, ?h1, ?_⟩
        case h1 =>
          simp [lib_step, lib_bendout, h, Op.eval, overlay, List.set]
          rfl
        refine ⟨?_, ?_⟩ <;> simp [lib_step, out2, Mem, overlay, List.set, h, hq]
      exact this
    | 1, ⟨p, hm⟩ =>
      subst hm
      have : ∃ s', Ends (sys a1 c) [((0, 1), [.float p])] { s with now := t } s' ∧ Mem ((out2 (· + 8192) a1).on x t 1 [.float p]).1 s' ∧ s'.q = [] ∧
          s'.log = s.log ++ ((out2 (· + 8192) a1).on x t 1 [.float p]).2.map fun y => (t, y) := by
        refine ⟨?s5, ?h5, ?_⟩
        case h5 =>
          simp [lib_step, lib_bendout, h, Op.eval, overlay, List.set]
          rfl
        refine ⟨?_, ?_⟩ <;> simp [lib_step, out2, Mem, overlay, List.set, h, hq]
      exact this
end Bendout

namespace Touchout

theorem inlet {e : Ev} (h : Out2 e) : Inlet e := by
  match e, h with
  | .ext _ 0 _, _ => exact (by decide : 0 < 2)
  | .ext _ 1 _, _ => exact (by decide : 1 < 2)
  | .tick, _ => trivial

variable {a1 : ℚ} {c : Ctx}

/-- what the state of the abstraction remembers -/
def Mem (x : ℚ) (s : St) : Prop := ∃ v, s.mem 1 = [.float v, .float x]

/-- **C72** `[touchout a]` -/
theorem does (M : Mach) (hM : Code a1 c M) (tab : Nat → List ℚ) :
    Does M drv (start c (nodes a1) tab) Out2 (out2 id a1) := by
  refine does_of_simulates (to_code hM (fun _ => inlet) (simulates_of_reacts (R := Mem) ?_ ?_))
    fun x s h => ⟨h.1.q, h.1.log⟩
  · have hb : ∃ s, Ends (sys a1 c) [((10, 0), [.bang])] (start c (nodes a1) tab) s ∧ Mem (out2 id a1).init s ∧ s.q = [] ∧ s.log = [] := by
      have hv0 : (start c (nodes a1) tab).mem 4 = [.float a1] := rfl
      have hp : (start c (nodes a1) tab).mem 1 = [.float 0, .float 0] := rfl
      have hq : (start c (nodes a1) tab).q = [] := rfl
      have hl : (start c (nodes a1) tab).log = [] := rfl
      refine ⟨?s0, ?h0, ?_⟩
      case h0 =>
        simp [lib_step, lib_touchout, hv0, hp, Op.eval]
        rfl
      refine ⟨?_, ?_⟩ <;> simp [lib_step, Mem, out2, hp, hq, hl]
    exact hb
  · intro x s t i m ⟨v, h⟩ hq hf
    match i, hf with
    | 0, ⟨p, hm⟩ =>
      subst hm
      have : ∃ s', Ends (sys a1 c) [((0, 0), [.float p])] { s with now := t } s' ∧ Mem ((out2 id a1).on x t 0 [.float p]).1 s' ∧ s'.q = [] ∧
          s'.log = s.log ++ ((out2 id a1).on x t 0 [.float p]).2.map fun y => (t, y) := by
        refine ⟨?s1, ?h1, ?_⟩
        case h1 =>
          simp [lib_step, lib_touchout, h, Op.eval, overlay, List.set]
          rfl
        refine ⟨?_, ?_⟩ <;> simp [lib_step, out2, Mem, overlay, List.set, h, hq]
      exact this
    | 1, ⟨p, hm⟩ =>
      subst hm
      have : ∃ s', Ends (sys a1 c) [((0, 1), [.float p])] { s with now := t } s' ∧ Mem ((out2 id a1).on x t 1 [.float p]).1 s' ∧ s'.q = [] ∧
          s'.log = s.log ++ ((out2 id a1).on x t 1 [.float p]).2.map fun y => (t, y) := by
        refine ⟨?s5, ?h5, ?_⟩
        case h5 =>
          simp [lib_step, lib_touchout, h, Op.eval, overlay, List.set]
          rfl
        refine ⟨?_, ?_⟩ <;> simp [lib_step, out2, Mem, overlay, List.set, h, hq]
      exact this
end Touchout

namespace Pgmout

theorem inlet {e : Ev} (h : Out2 e) : Inlet e := by
  match e, h with
  | .ext _ 0 _, _ => exact (by decide : 0 < 2)
  | .ext _ 1 _, _ => exact (by decide : 1 < 2)
  | .tick, _ => trivial

variable {a1 : ℚ} {c : Ctx}

/-- what the state of the abstraction remembers -/
def Mem (x : ℚ) (s : St) : Prop := ∃ v, s.mem 2 = [.float v, .float x]

/-- **C72** `[pgmout a]`: programs are counted from 1 at the inlet -/
theorem does (M : Mach) (hM : Code a1 c M) (tab : Nat → List ℚ) :
    Does M drv (start c (nodes a1) tab) Out2 (out2 (fun p => max (p - 1) 0) a1) := by
  refine does_of_simulates (to_code hM (fun _ => inlet) (simulates_of_reacts (R := Mem) ?_ ?_))
    fun x s h => ⟨h.1.q, h.1.log⟩
  · have hb : ∃ s, Ends (sys a1 c) [((11, 0), [.bang])] (start c (nodes a1) tab) s ∧ Mem (out2 (fun p => max (p - 1) 0) a1).init s ∧ s.q = [] ∧ s.log = [] := by
      have hv0 : (start c (nodes a1) tab).mem 5 = [.float a1] := rfl
      have hp : (start c (nodes a1) tab).mem 2 = [.float 0, .float 0] := rfl
      have hq : (start c (nodes a1) tab).q = [] := rfl
      have hl : (start c (nodes a1) tab).log = [] := rfl
      refine ⟨?s0, ?h0, ?_⟩
      case h0 =>
        simp [lib_step, lib_pgmout, hv0, hp, Op.eval]
        rfl
      refine ⟨?_, ?_⟩ <;> simp [lib_step, Mem, out2, hp, hq, hl]
    exact hb
  · intro x s t i m ⟨v, h⟩ hq hf
    match i, hf with
    | 0, ⟨p, hm⟩ =>
      subst hm
      have : ∃ s', Ends (sys a1 c) [((0, 0), [.float p])] { s with now := t } s' ∧ Mem ((out2 (fun p => max (p - 1) 0) a1).on x t 0 [.float p]).1 s' ∧ s'.q = [] ∧
          s'.log = s.log ++ ((out2 (fun p => max (p - 1) 0) a1).on x t 0 [.float p]).2.map fun y => (t, y) := by
        refine ⟨?s1, ?h1, ?_⟩
        case h1 =>
          simp [lib_step, lib_pgmout, h, Op.eval, overlay, List.set]
          rfl
        refine ⟨?_, ?_⟩ <;> simp [lib_step, out2, Mem, overlay, List.set, h, hq]
      exact this
    | 1, ⟨p, hm⟩ =>
      subst hm
      have : ∃ s', Ends (sys a1 c) [((0, 1), [.float p])] { s with now := t } s' ∧ Mem ((out2 (fun p => max (p - 1) 0) a1).on x t 1 [.float p]).1 s' ∧ s'.q = [] ∧
          s'.log = s.log ++ ((out2 (fun p => max (p - 1) 0) a1).on x t 1 [.float p]).2.map fun y => (t, y) := by
        refine ⟨?s5, ?h5, ?_⟩
        case h5 =>
          simp [lib_step, lib_pgmout, h, Op.eval, overlay, List.set]
          rfl
        refine ⟨?_, ?_⟩ <;> simp [lib_step, out2, Mem, overlay, List.set, h, hq]
      exact this
end Pgmout

end Verif.Lib
