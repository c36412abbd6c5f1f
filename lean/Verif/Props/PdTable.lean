import Verif.PdTable
import Verif.Props.PdArray
/-!
# C96: [table]
-/
namespace Verif.PdTable
open Verif.Msg (R)

variable {α : Type} [Zero α]

/-- the table has `n` places, all of them 0 -/
def Zeros (T : Tab.Table α) (n : Nat) : Prop := T.length = n ∧ ∀ i < n, T.buf[i]? = some 0

theorem zeros_of_size {k : Nat} (hk : k ≤ 28) (junk : Nat → α) {o : Obj} {n : Nat} (h : o.size = n) (hs : n + 2 * 2 ^ k < 2 ^ 30) :
    ∃ T, table k junk o = .ok T ∧ Zeros T n := by
  have e : (o.size % 2 ^ 32).toNat = n := by rw [h]; omega
  unfold table
  rw [e]
  have e2 : PdArray.langTable (⟨n, []⟩ : PdArray.Arr α) = ⟨n, []⟩ := rfl
  rw [e2]
  unfold PdArray.compiled
  rw [if_neg (by simp)]
  obtain ⟨T, e, h1, h2, h3, h4⟩ := Tab.init_spec hk junk (n := n) hs
  refine ⟨T, e, h2, fun i hi => ?_⟩
  rw [h4]
  have := (Tab.up_spec k n (by omega) (by omega)).1
  rw [List.getElem?_replicate, if_pos (by omega)]

/-- **C96** `[table name n …]` with a whole number `n` is the array of this name with `n` places, all 0 -/
theorem sized_partial {k : Nat} (hk : k ≤ 28) (junk : Nat → α) {pyInt : String → Option Int} (name s : String) (rest : List String) {n : Nat}
    (hn : pyInt s = some (n : Int)) (hs : n + 2 * 2 ^ k < 2 ^ 30) :
    (parse pyInt (name :: s :: rest)).name = some name ∧ ∃ T, table k junk (parse pyInt (name :: s :: rest)) = .ok T ∧ Zeros T n := by
  have e : parse pyInt (name :: s :: rest) = ⟨some name, n, rest[0]? = some "@hv_table"⟩ := by
    simp only [parse, hn]
  rw [e]
  exact ⟨rfl, zeros_of_size hk junk rfl hs⟩

/-- **C96** the host finds the table exactly if its size is a whole number and the third argument is `@hv_table` -/
theorem found_by_host (pyInt : String → Option Int) (args : List String) :
    (parse pyInt args).extern = true ↔ ∃ name s rest, args = name :: s :: "@hv_table" :: rest ∧ pyInt s ≠ none := by
  constructor
  · intro h
    match args, h with
    | [], h => simp [parse] at h
    | [name], h => simp [parse] at h
    | name :: s :: rest, h =>
      cases hp : pyInt s with
      | none => simp [parse, hp] at h
      | some n =>
        simp only [parse, hp, decide_eq_true_eq] at h
        match rest, h with
        | [], h => simp at h
        | r :: rest, h =>
          have : r = "@hv_table" := by simpa using h
          exact ⟨name, s, rest, by rw [this], by simp [hp]⟩
  · rintro ⟨name, s, rest, rfl, hp⟩
    obtain ⟨n, hn⟩ := Option.ne_none_iff_exists'.1 hp
    simp [parse, hn]

/-- **C96** a missing name is an error, and nothing else is -/
theorem name_needed (pyInt : String → Option Int) (args : List String) : (parse pyInt args).name = args[0]? := by
  match args with
  | [] => rfl
  | [name] => rfl
  | name :: s :: rest => cases hp : pyInt s <;> simp [parse, hp]

/-- **C96, negative** without a size (Pd: 100), or with one that is not written as a whole number, the table has no place at all, and no error
is reported -/
theorem no_size {k : Nat} (hk : k ≤ 28) (junk : Nat → α) {pyInt : String → Option Int} (name : String) (rest : List String)
    (h : ∀ s, rest[0]? = some s → pyInt s = none) :
    ∃ T, table k junk (parse pyInt (name :: rest)) = .ok T ∧ T.length = 0 := by
  have e : (parse pyInt (name :: rest)).size = (0 : Nat) := by
    match rest, h with
    | [], _ => rfl
    | s :: rest, h => simp [parse, h s rfl]
  have : (2 : Nat) ^ k ≤ 2 ^ 28 := Nat.pow_le_pow_right (by omega) hk
  obtain ⟨T, h1, h2⟩ := zeros_of_size hk junk e (by omega)
  exact ⟨T, h1, h2.1⟩

namespace Example

/-- Python's `int` for some texts -/
def pyInt (s : String) : Option Int := if s = "100" then some 100 else if s = "-5" then some (-5) else none

/-- `[table a 100 @hv_table]` meets the hypotheses -/
theorem hundred : (∃ T : Tab.Table Int, table 2 (fun _ => 7) (parse pyInt ["a", "100", "@hv_table"]) = .ok T ∧ Zeros T 100) ∧
    (parse pyInt ["a", "100", "@hv_table"]).extern = true :=
  ⟨(sized_partial (by decide) _ "a" "100" ["@hv_table"] (n := 100) rfl (by decide)).2, by decide⟩

/-- `[table a 1e3]` and `[table a @hv_table]` -/
theorem nothing : parse pyInt ["a", "1e3", "@hv_table"] = ⟨some "a", 0, false⟩ ∧ parse pyInt ["a", "@hv_table"] = ⟨some "a", 0, false⟩ := by
  decide

/-- **C96, negative** a negative size: a table of more than four billion places without any memory -/
theorem negative : ∃ T : Tab.Table Int, table 2 (fun _ => 7) (parse pyInt ["a", "-5"]) = .ok T ∧ T.length = 4294967291 ∧ T.buf = [] :=
  ⟨_, rfl, by decide, by decide +kernel⟩

end Example

end Verif.PdTable
