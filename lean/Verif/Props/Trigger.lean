import Verif.Trigger
import Verif.Props.Control
/-!
# C95: [trigger]
-/
namespace Verif.Trigger
open Verif.Control (Cast Dest)
open Verif.Lib (Atom Msg)

/-! ### the specification: Pd's [trigger] -/

/-- what the outlets of `[trigger]` do -/
inductive Kind
  | anything | bang | float | symbol
  deriving DecidableEq

/-- the kind of an outlet: a number means `f` -/
def kindOf (isFloat : String → Bool) (a : String) : Option Kind :=
  if isFloat a then some .float
  else if a = "a" then some .anything
  else if a = "b" then some .bang
  else if a = "f" then some .float
  else if a = "s" then some .symbol
  else none

/-- the outlets: without an argument there are two for bangs -/
def kinds (isFloat : String → Bool) (args : List String) : Option (List Kind) :=
  if args = [] then some [.bang, .bang] else args.mapM (kindOf isFloat)

/-- what an outlet sends for a number or a list that begins with a number -/
def number (q : ℚ) (rest : Msg) : Kind → Msg
  | .anything => .float q :: rest
  | .bang => [.bang]
  | .float => [.float q]
  | .symbol => [.sym "float"]

/-- what is sent where, from the right outlet to the left one -/
def rightToLeft (out : Kind → Msg) (ks : List Kind) : List (Nat × Msg) := (ks.zipIdx.map fun x => (x.2, out x.1)).reverse

/-! ### the theorems -/

/-- what the box sends, outlet `k` shown as the destination `(k, 0)`: the meaning of a sequence in C45 with the casts of HvControlCast.c -/
def sent (cast : Cast → Msg → Option Msg) (m : Msg) (cs : List (Option Cast)) : List (Nat × Msg) :=
  (Control.trigger (σ := Unit) ⟨fun _ _ _ => .done, cast⟩ (fun k => [(k, 0)]) m 0 cs).map fun x => (x.1.1, x.2)

/-- the cast of a kind -/
def ofKind : Kind → Option Cast
  | .anything => none
  | .bang => some .bang
  | .float => some .float
  | .symbol => some .symbol

/-- the message that an outlet sends, if any -/
def answer (m : Msg) (k : Kind) : Option Msg :=
  match ofKind k with
  | none => some m
  | some c => Lib.cast c m

theorem sent_eq (m : Msg) (ks : List Kind) (n : Nat) :
    (Control.trigger (σ := Unit) ⟨fun _ _ _ => .done, Lib.cast⟩ (fun k => [(k, 0)]) m n (ks.map ofKind)).map (fun x => (x.1.1, x.2)) =
      ((ks.zipIdx n).filterMap fun x => (answer m x.1).map fun y => (x.2, y)).reverse := by
  induction ks generalizing n with
  | nil => rfl
  | cons k ks ih =>
    rw [List.map_cons, Control.trigger, List.map_append, ih, List.zipIdx_cons, List.filterMap_cons]
    unfold answer
    cases hk : ofKind k with
    | none => simp [Control.sendCast]
    | some c => cases hc : Lib.cast c m <;> simp [Control.sendCast, hc]

/-- one argument: the text that pd2hv makes of it is accepted exactly if the argument has a kind, and gives the cast of this kind -/
theorem one_arg (isFloat : String → Bool) (a : String) :
    (kindOf isFloat a = none ∧ (!["a", "f", "s", "b"].contains (if isFloat a then "f" else a)) = true) ∨
    ∃ k, kindOf isFloat a = some k ∧ (!["a", "f", "s", "b"].contains (if isFloat a then "f" else a)) = false ∧
      castOf (if isFloat a then "f" else a) = some (ofKind k) := by
  unfold kindOf
  by_cases h : isFloat a = true
  · exact .inr ⟨.float, by simp [h], by simp [h], by simp [h, castOf, ofKind]⟩
  · rw [if_neg h, if_neg h]
    by_cases h1 : a = "a"
    · subst h1; exact .inr ⟨.anything, by simp, by simp, by simp [castOf, ofKind]⟩
    by_cases h2 : a = "b"
    · subst h2; exact .inr ⟨.bang, by simp, by simp, by simp [castOf, ofKind]⟩
    by_cases h3 : a = "f"
    · subst h3; exact .inr ⟨.float, by simp, by simp, by simp [castOf, ofKind]⟩
    by_cases h4 : a = "s"
    · subst h4; exact .inr ⟨.symbol, by simp, by simp, by simp [castOf, ofKind]⟩
    exact .inl (by simp [h1, h2, h3, h4])

theorem mapM_casts (isFloat : String → Bool) (args : List String) :
    (args.mapM (kindOf isFloat) = none ∧ ((args.map fun a => if isFloat a then "f" else a).any fun a => !["a", "f", "s", "b"].contains a) = true) ∨
    ∃ ks, args.mapM (kindOf isFloat) = some ks ∧
      ((args.map fun a => if isFloat a then "f" else a).any fun a => !["a", "f", "s", "b"].contains a) = false ∧
      (args.map fun a => if isFloat a then "f" else a).mapM castOf = some (ks.map ofKind) := by
  induction args with
  | nil => exact .inr ⟨[], rfl, rfl, rfl⟩
  | cons a args ih =>
    rcases one_arg isFloat a with ⟨h1, h2⟩ | ⟨k, h1, h2, h3⟩
    · exact .inl ⟨by simp [h1], by rw [List.map_cons, List.any_cons, h2]; rfl⟩
    · rcases ih with ⟨g1, g2⟩ | ⟨ks, g1, g2, g3⟩
      · exact .inl ⟨by simp [h1, g1], by rw [List.map_cons, List.any_cons, g2, Bool.or_true]⟩
      · exact .inr ⟨k :: ks, by simp [h1, g1], by rw [List.map_cons, List.any_cons, h2, g2]; rfl, by
          rw [List.map_cons, List.mapM_cons, h3, g3]; rfl⟩

/-- **C95** the box is accepted exactly if every argument is a number or one of `a b f s`, and its outlets are the stated ones -/
theorem outlets (isFloat : String → Bool) (args : List String) : casts isFloat args = (kinds isFloat args).map fun ks => ks.map ofKind := by
  unfold casts parse kinds
  by_cases h : args = []
  · subst h; simp [castOf, ofKind]
  · have hl : args.map (fun a => if isFloat a then "f" else a) ≠ [] := by simpa using h
    simp only [if_neg hl, if_neg h]
    rcases mapM_casts isFloat args with ⟨g1, g2⟩ | ⟨ks, g1, g2, g3⟩
    · rw [g2, g1]; rfl
    · rw [g2, g1, g3]; rfl

/-- **C95** for a number, or a list that begins with a number, the outlets send from right to left what they should -/
theorem numbers {isFloat : String → Bool} {args : List String} {ks : List Kind} {cs : List (Option Cast)} (hk : kinds isFloat args = some ks)
    (hc : casts isFloat args = some cs) (q : ℚ) (rest : Msg) : sent Lib.cast (.float q :: rest) cs = rightToLeft (number q rest) ks := by
  have e : cs = ks.map ofKind := by rw [outlets, hk] at hc; exact (Option.some.inj hc).symm
  rw [e]
  refine (sent_eq _ ks 0).trans ?_
  unfold rightToLeft
  congr 1
  rw [← List.filterMap_eq_map]
  apply List.filterMap_congr
  rintro ⟨k, i⟩ _
  cases k <;> rfl

/-- what an outlet sends for a bang: numbers are 0 (for `s` the word that hvcc chooses) -/
def bang : Kind → Msg
  | .anything => [.bang]
  | .bang => [.bang]
  | .float => [.float 0]
  | .symbol => [.sym "bang"]

/-- **C95** for a bang the outlets for numbers are silent; all others send what they should, from right to left -/
theorem bangs_partial {isFloat : String → Bool} {args : List String} {ks : List Kind} {cs : List (Option Cast)}
    (hk : kinds isFloat args = some ks) (hc : casts isFloat args = some cs) :
    sent Lib.cast [.bang] cs = (rightToLeft bang ks).filter fun x => ks[x.1]? ≠ some .float := by
  have e : cs = ks.map ofKind := by rw [outlets, hk] at hc; exact (Option.some.inj hc).symm
  rw [e]
  refine (sent_eq _ ks 0).trans ?_
  unfold rightToLeft
  rw [List.filter_reverse]
  congr 1
  rw [← List.filterMap_eq_filter, ← List.filterMap_eq_map, List.filterMap_filterMap]
  apply List.filterMap_congr
  rintro ⟨k, i⟩ hi
  obtain ⟨-, h2, h3⟩ := List.mem_zipIdx hi
  simp only [Nat.sub_zero] at h3
  have h4 : ks[i]? = some k := by rw [List.getElem?_eq_getElem (by omega), h3]
  cases k <;> simp [h4, answer, ofKind, Lib.cast, bang, Option.guard]

namespace Example

/-- what Python takes for numbers, here -/
def isFloat (s : String) : Bool := s == "5" || s == "1e3"

/-- `[t b f 5 a]` meets the hypotheses -/
theorem meets : kinds isFloat ["b", "f", "5", "a"] = some [.bang, .float, .float, .anything] ∧
    casts isFloat ["b", "f", "5", "a"] = some [some .bang, some .float, some .float, none] := by decide

/-- and sends, for the list 7 8, first the list, then twice 7, then a bang -/
theorem sends : sent Lib.cast [.float 7, .float 8] [some .bang, some .float, some .float, none] =
    [(3, [.float 7, .float 8]), (2, [.float 7]), (1, [.float 7]), (0, [.bang])] :=
  numbers meets.1 meets.2 7 [.float 8]

/-- names of kinds in full, and `l`, are errors -/
theorem refused : casts isFloat ["bang", "b"] = none ∧ casts isFloat ["l"] = none := by decide

/-- **C95, negative** a bang to `[t f b]`: the left outlet sends 0 in Pd and nothing here -/
theorem silent : sent Lib.cast [.bang] [some .float, some .bang] = [(1, [.bang])] ∧
    rightToLeft bang [.float, .bang] = [(1, [.bang]), (0, [.float 0])] := ⟨rfl, rfl⟩

end Example

end Verif.Trigger
