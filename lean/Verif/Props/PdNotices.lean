import Verif.PdNotices

/-!
C98: an error added to any box, at any depth, stops the compilation and is in the report.
-/

namespace Verif.PdNotices

/-- Specification: the error `m` was added to the box or to a box at some depth in it. -/
inductive ErrIn (m : Msg) : Box → Prop
  | obj {e w} : m ∈ e → ErrIn m (.obj e w)
  | own {e w os} : m ∈ e → ErrIn m (.graph e w os)
  | inside {e w os b} : b ∈ os → ErrIn m b → ErrIn m (.graph e w os)

/-- Specification: the warning `m` was added to the box or to a box at some depth in it. -/
inductive WarnIn (m : Msg) : Box → Prop
  | obj {e w} : m ∈ w → WarnIn m (.obj e w)
  | own {e w os} : m ∈ w → WarnIn m (.graph e w os)
  | inside {e w os b} : b ∈ os → WarnIn m b → WarnIn m (.graph e w os)

theorem noticesAll_eq (os : List Box) : noticesAll os = os.map notices := by
  induction os with
  | nil => simp [noticesAll]
  | cons b bs ih => simp [noticesAll, ih]

theorem dropExc_warnings (n : Notif) : (dropExc n).warnings = n.warnings := by
  unfold dropExc; split <;> rfl

theorem dropExc_hasError (n : Notif) : (dropExc n).hasError = n.hasError := by
  unfold dropExc; split <;> rfl

theorem mem_dropExc (n : Notif) (m : Msg) :
    m ∈ (dropExc n).errors ↔
      m ∈ n.errors ∧ (m.isExc = true → ∀ k ∈ n.errors, k.isExc = true) := by
  unfold dropExc
  split
  · rename_i h
    obtain ⟨k, hk, hke⟩ := List.any_eq_true.1 h
    simp only [List.mem_filter]
    constructor
    · rintro ⟨h1, h2⟩
      exact ⟨h1, fun h3 => by simp [h3] at h2⟩
    · rintro ⟨h1, h2⟩
      refine ⟨h1, ?_⟩
      cases hm : m.isExc
      · rfl
      · have := h2 hm k hk
        simp [this] at hke
  · rename_i h
    constructor
    · intro hm
      refine ⟨hm, fun _ k hk => ?_⟩
      cases hke : k.isExc
      · exact absurd (List.any_eq_true.2 ⟨k, hk, by simp [hke]⟩) h
      · rfl
    · exact fun h => h.1

/-- Everything reported was added, and every error that is not an exception is reported. -/
theorem mem_errors (b : Box) (m : Msg) :
    (m ∈ (notices b).errors → ErrIn m b) ∧
      (m.isExc = false → ErrIn m b → m ∈ (notices b).errors) := by
  match b with
  | .obj e w =>
    constructor
    · intro h
      exact .obj (by simpa [notices] using h)
    · rintro - (h | h | h)
      simpa [notices] using h
  | .graph e w os =>
    have ih : ∀ o ∈ os, _ := fun o ho => mem_errors o m
    simp only [notices, mem_dropExc, noticesAll_eq, List.mem_append, List.mem_flatMap,
      List.mem_map]
    constructor
    · rintro ⟨h | ⟨n, ⟨o, ho, rfl⟩, h⟩, -⟩
      · exact .own h
      · exact .inside ho ((ih o ho).1 h)
    · intro hx h
      refine ⟨?_, by simp [hx]⟩
      cases h with
      | own h => exact .inl h
      | inside ho h => exact .inr ⟨_, ⟨_, ho, rfl⟩, (ih _ ho).2 hx h⟩
termination_by sizeOf b
decreasing_by
  have := List.sizeOf_lt_of_mem ho
  simp_wf
  omega

/-- A box with an error at some depth reports one. -/
theorem errors_ne_nil (b : Box) (m : Msg) (h : ErrIn m b) : (notices b).errors ≠ [] := by
  induction h with
  | obj h => simpa [notices] using List.ne_nil_of_mem h
  | @own e w os h =>
    intro hn
    simp only [notices] at hn
    unfold dropExc at hn
    split at hn
    · rename_i ha
      obtain ⟨k, hk, hke⟩ := List.any_eq_true.1 ha
      have := List.filter_eq_nil_iff.1 hn k hk
      exact this hke
    · have : m ∈ ([] : List Msg) := hn ▸ List.mem_append_left _ h
      cases this
  | @inside e w os b ho _ ih =>
    obtain ⟨k0, hk0⟩ := List.exists_mem_of_ne_nil _ ih
    intro hn
    simp only [notices] at hn
    unfold dropExc at hn
    split at hn
    · rename_i ha
      obtain ⟨k, hk, hke⟩ := List.any_eq_true.1 ha
      have := List.filter_eq_nil_iff.1 hn k hk
      exact this hke
    · have : k0 ∈ ([] : List Msg) := by
        rw [← hn]
        refine List.mem_append_right _ (List.mem_flatMap.2 ⟨notices b, ?_, hk0⟩)
        rw [noticesAll_eq]
        exact List.mem_map_of_mem ho
      cases this

/-- C98: the compilation stops exactly when an error was added to some box, at any depth. -/
theorem stops_iff (root : Box) : stops root = true ↔ ∃ m, ErrIn m root := by
  unfold stops
  rw [decide_eq_true_iff, List.length_pos_iff]
  constructor
  · intro h
    obtain ⟨m, hm⟩ := List.exists_mem_of_ne_nil _ h
    exact ⟨m, (mem_errors root m).1 hm⟩
  · rintro ⟨m, hm⟩
    exact errors_ne_nil root m hm

/-- C98: the errors in the report that are no exceptions are exactly those added. -/
theorem reported_iff (root : Box) (m : Msg) (hm : m.isExc = false) :
    m ∈ (notices root).errors ↔ ErrIn m root :=
  ⟨(mem_errors root m).1, (mem_errors root m).2 hm⟩

/-- C98: nothing is reported that was not added. -/
theorem reported_added (root : Box) (m : Msg) (h : m ∈ (notices root).errors) : ErrIn m root :=
  (mem_errors root m).1 h

/-- C98: a patch's report has an exception in it only if no other error was added anywhere. -/
theorem exception_alone (e w : List Msg) (os : List Box) (m k : Msg) (hm : m.isExc = true)
    (h : m ∈ (notices (.graph e w os)).errors) (hk : ErrIn k (.graph e w os)) :
    k.isExc = true := by
  cases hke : k.isExc
  · have hr := (mem_errors _ k).2 hke hk
    simp only [notices, mem_dropExc] at h hr
    rw [← hke]
    exact h.2 hm k hr.1
  · rfl

/-- C98: the warnings in the report are exactly those added, at any depth. -/
theorem warned_iff (b : Box) (m : Msg) : m ∈ (notices b).warnings ↔ WarnIn m b := by
  match b with
  | .obj e w =>
    constructor
    · intro h
      exact .obj (by simpa [notices] using h)
    · rintro (h | h | h)
      simpa [notices] using h
  | .graph e w os =>
    have ih : ∀ o ∈ os, _ := fun o ho => warned_iff o m
    simp only [notices, dropExc_warnings, noticesAll_eq, List.mem_append, List.mem_flatMap,
      List.mem_map]
    constructor
    · rintro (h | ⟨n, ⟨o, ho, rfl⟩, h⟩)
      · exact .own h
      · exact .inside ho ((ih o ho).1 h)
    · intro h
      cases h with
      | own h => exact .inl h
      | inside ho h => exact .inr ⟨_, ⟨_, ho, rfl⟩, (ih _ ho).2 h⟩
termination_by sizeOf b
decreasing_by
  have := List.sizeOf_lt_of_mem ho
  simp_wf
  omega

/-- C98, finding F139: the parser's check before validation sees only the errors of the root graph
itself: it validates exactly when those are none, whatever the boxes inside carry. -/
theorem validated_iff (e w : List Msg) (os : List Box) :
    validated (.graph e w os) = true ↔ e = [] := by
  unfold validated
  rw [notices, dropExc_hasError]
  cases e <;> simp

/-- A box with the error `m` inside `d` sub-patches that have no errors of their own. -/
def nested (m : Msg) : Nat → Box
  | 0 => .obj [m] []
  | d + 1 => .graph [] [] [nested m d]

/-- F139: at every depth of sub-patches around the box with the error the patch is validated
although it already has this error, and then stops. -/
theorem validated_with_error (m : Msg) (d : Nat) :
    ErrIn m (nested m (d + 1)) ∧ validated (nested m (d + 1)) = true ∧
      stops (nested m (d + 1)) = true := by
  have h : ∀ d, ErrIn m (nested m d) := by
    intro d
    induction d with
    | zero => exact .obj (List.mem_singleton.2 rfl)
    | succ d ih => exact .inside (List.mem_singleton.2 rfl) ih
  exact ⟨h _, (validated_iff _ _ _).2 rfl, (stops_iff _).2 ⟨m, h _⟩⟩

/-- A concrete patch: an exception in the root, an error two patches down. -/
example :
    let p : Box := .graph [⟨true, "x"⟩] [] [.graph [] [⟨false, "w"⟩] [.obj [⟨false, "y"⟩] []]]
    stops p = true ∧ (notices p).errors = [⟨false, "y"⟩] ∧ (notices p).warnings = [⟨false, "w"⟩] :=
  by decide +kernel

end Verif.PdNotices
