import Verif.PdArray
import Verif.Props.Table
/-!
C43: specification and proofs.
-/
namespace Verif.PdArray
open Verif.Msg (R)

variable {α : Type} [Zero α]

/-! ## Specification -/

/-- the saved lines: pieces of the contents, each with the index at which it starts, one after the other -/
def Saved (lines : List (Nat × List α)) (values : List α) : Prop := (lines.map (·.2)).flatten = values

/-- the table has `n` samples, which are `values`, and zeros after them -/
def Holds (T : Tab.Table α) (n : Nat) (values : List α) : Prop :=
  T.length = n ∧ ∀ i < n, T.buf[i]? = some (values.getD i 0)

/-! ## Proofs -/

theorem foldl_addValues (lines : List (Nat × List α)) (a : Arr α) :
    lines.foldl addValues a = ⟨a.size, a.values ++ (lines.map (·.2)).flatten⟩ := by
  induction lines generalizing a with
  | nil => simp
  | cons l ls ih => simp [ih, addValues]

theorem parse_eq {size : Nat} {lines : List (Nat × List α)} {values : List α} (h : Saved lines values) :
    langTable (parse size lines) =
      if values = [] then ⟨size, []⟩
      else if values.length ≤ size then ⟨values.length, values⟩
      else ⟨2 * values.length - size, values ++ List.replicate (values.length - size) 0⟩ := by
  have hp : parse size lines = restore ⟨size, values⟩ := by
    unfold parse
    rw [foldl_addValues, show (lines.map (·.2)).flatten = values from h]
    simp [declare]
  rw [hp]
  by_cases hv : values = []
  · subst hv
    rw [if_pos rfl]
    by_cases hs : size = 0
    · simp [hs, langTable, restore]
    · simp [hs, langTable, restore]
  · have hpos := List.length_pos_iff.mpr hv
    rw [if_neg hv]
    by_cases hle : values.length ≤ size
    · rw [if_pos hle]
      by_cases he : size = values.length
      · simp [he, langTable, hpos, restore]
      · simp [restore, he, langTable, hpos, Nat.max_eq_left hle]
    · rw [if_neg hle]
      have h1 : max size values.length = values.length := by omega
      have h2 : ¬ values.length < size := by omega
      have h3 : ¬ size = values.length := by omega
      have h4 : 0 < values.length + (values.length - size) := by omega
      simp [restore, h1, h2, h3, langTable, h4]
      omega

/-! ## C43 -/

/-- An array that is saved with all its `n` values, in any number of pieces, is a table of these `n` samples; an array
that is saved without its contents is a table of `n` zeros. -/
theorem array_contents_partial {k : Nat} (hk : k ≤ 28) (junk : Nat → α) {n : Nat} {lines : List (Nat × List α)} {values : List α}
    (h : Saved lines values) (hn : values.length = n ∨ values = []) (hs : n + 2 * 2 ^ k < 2 ^ 30) :
    ∃ T, table k junk n lines = .ok T ∧ Holds T n values := by
  unfold table
  rw [parse_eq h]
  by_cases hv : values = []
  · subst hv
    rw [if_pos rfl]
    unfold compiled
    rw [if_neg (by simp)]
    obtain ⟨T, e, h1, h2, h3, h4⟩ := Tab.init_spec hk junk (n := n) hs
    refine ⟨T, e, h2, fun i hi => ?_⟩
    rw [h4]
    have := (Tab.up_spec k n (by omega) (by omega)).1
    rw [List.getElem?_replicate, if_pos (by omega)]
    simp
  · have hlen : values.length = n := hn.resolve_right hv
    have hpos := List.length_pos_iff.mpr hv
    rw [if_neg hv, if_pos (by omega)]
    unfold compiled
    rw [if_pos hpos]
    obtain ⟨T, e, h2, h3⟩ := Tab.initWithData_contents hk junk values (by omega)
    refine ⟨T, e, by rw [h2, hlen], fun i hi => ?_⟩
    rw [h3, List.getElem?_append_left (by omega), List.getElem?_eq_getElem (by omega)]
    simp [hlen ▸ hi]

/-- Finding F18: an array saved with fewer values than its size (but some) becomes too short … -/
theorem array_too_short {k : Nat} (hk : k ≤ 28) (junk : Nat → α) {n : Nat} {lines : List (Nat × List α)} {values : List α}
    (h : Saved lines values) (hv : values ≠ []) (hn : values.length < n) (hs : n + 2 * 2 ^ k < 2 ^ 30) :
    ∃ T, table k junk n lines = .ok T ∧ T.length = values.length := by
  unfold table
  rw [parse_eq h, if_neg hv, if_pos (by omega)]
  unfold compiled
  rw [if_pos (List.length_pos_iff.mpr hv)]
  obtain ⟨T, e, h2, -⟩ := Tab.initWithData_contents hk junk values (by omega)
  exact ⟨T, e, h2⟩

/-- … and one saved with more values than its size becomes longer than both. -/
theorem array_too_long {k : Nat} (hk : k ≤ 28) (junk : Nat → α) {n : Nat} {lines : List (Nat × List α)} {values : List α}
    (h : Saved lines values) (hn : n < values.length) (hs : 2 * values.length + 2 * 2 ^ k < 2 ^ 30) :
    ∃ T, table k junk n lines = .ok T ∧ T.length = values.length + (values.length - n) ∧
      ∀ i < T.length, T.buf[i]? = some (values.getD i 0) := by
  have hv : values ≠ [] := by rintro rfl; simp at hn
  unfold table
  rw [parse_eq h, if_neg hv, if_neg (by omega)]
  unfold compiled
  have hl : (values ++ List.replicate (values.length - n) (0 : α)).length = values.length + (values.length - n) := by simp
  simp only
  rw [if_pos (by omega)]
  obtain ⟨T, e, h2, h3⟩ := Tab.initWithData_contents hk junk (values ++ List.replicate (values.length - n) 0) (by omega)
  refine ⟨T, e, by rw [h2, hl], fun i hi => ?_⟩
  rw [h2, hl] at hi
  rw [h3, List.getElem?_append_left (by omega)]
  by_cases hlt : i < values.length
  · rw [List.getElem?_append_left hlt, List.getElem?_eq_getElem hlt]
    simp [hlt]
  · rw [List.getElem?_append_right (by omega), List.getElem?_replicate, if_pos (by omega)]
    simp [List.getElem?_eq_none (show values.length ≤ i by omega)]

/-- a concrete case: four values in two pieces -/
example : ∃ T, table 2 (fun _ => (7 : Int)) 4 [(0, [1, 2, 3]), (3, [4])] = .ok T ∧ Holds T 4 [1, 2, 3, 4] :=
  array_contents_partial (by decide) _ rfl (.inl rfl) (by decide)

end Verif.PdArray
