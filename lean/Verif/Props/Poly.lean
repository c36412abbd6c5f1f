import Verif.Props.LibPoly
import Mathlib.Data.List.Induction
/-!
What a musician relies on (C71), read off the output of `[poly]` alone: `heard` is what sounds on a synthesizer of many voices that
is sent the output.  `poly_partial` says that the generated code sends what `played` says.
-/
namespace Verif.Lib.Poly

/-- what the synthesizer's voices do after one more note: a positive velocity starts a voice, any other ends it -/
def hear (h : Nat → Option ℚ) (x : Note) : Nat → Option ℚ :=
  fun i => if i = x.voice then (if 0 < x.vel then some x.pitch else none) else h i

/-- after a list of notes, from silence -/
def heard (xs : List Note) : Nat → Option ℚ := xs.foldl hear fun _ => none

/-- a well-behaved stream for `n` voices: a voice is only started while silent, and only ended while it sounds, with its own pitch -/
def Proper (n : Nat) : (Nat → Option ℚ) → List Note → Prop
  | _, [] => True
  | h, x :: xs => x.voice < n ∧ (if 0 < x.vel then h x.voice = none else h x.voice = some x.pitch) ∧ Proper n (hear h x) xs

/-- where in the stream voice `i` was last addressed: the number of notes up to then; 0: never -/
def lastAt (xs : List Note) (i : Nat) : Nat :=
  match xs.reverse.findIdx? (fun x => x.voice = i) with
  | some k => xs.length - k
  | none => 0

/-- the state and all notes after messages (inlet, message) -/
def after (n : Nat) (steal : Bool) (hist : List (Nat × Msg)) : Alloc × List Note :=
  hist.foldl (fun x e => ((x.1.on steal e.1 e.2).1, x.2 ++ (x.1.on steal e.1 e.2).2)) (.new n, [])

/-- all notes -/
def played (n : Nat) (steal : Bool) (hist : List (Nat × Msg)) : List Note := (after n steal hist).2

/-- the answer to one more message -/
def answer (n : Nat) (steal : Bool) (hist : List (Nat × Msg)) (e : Nat × Msg) : List Note := ((after n steal hist).1.on steal e.1 e.2).2

theorem after_snoc (n : Nat) (steal : Bool) (hist : List (Nat × Msg)) (e : Nat × Msg) :
    after n steal (hist ++ [e]) = (((after n steal hist).1.on steal e.1 e.2).1, played n steal hist ++ answer n steal hist e) := by
  simp only [after, played, answer, List.foldl_append, List.foldl_cons, List.foldl_nil]

theorem played_snoc (n : Nat) (steal : Bool) (hist : List (Nat × Msg)) (e : Nat × Msg) :
    played n steal (hist ++ [e]) = played n steal hist ++ answer n steal hist e := by
  rw [played, after_snoc]

/-- the messages of a history -/
def inputs (es : List Ev) : List (Nat × Msg) := es.filterMap fun
  | .ext _ i m => some (i, m)
  | .tick => none

theorem after_inputs (n : Nat) (steal : Bool) (es : List Ev) :
    ((poly n steal).after es).1 = (after n steal (inputs es)).1 ∧
    ((poly n steal).after es).2.map (·.2) = (played n steal (inputs es)).flatMap Note.out := by
  induction es using List.reverseRecOn with
  | nil => exact ⟨rfl, rfl⟩
  | append_singleton es e ih =>
    have e0 : (poly n steal).after (es ++ [e]) = (poly n steal).step ((poly n steal).after es) e := by
      simp [Reacts.after, List.foldl_append]
    rw [e0]
    cases e with
    | tick => simpa [Reacts.step, inputs] using ih
    | ext t i m =>
      have e1 : inputs (es ++ [.ext t i m]) = inputs es ++ [(i, m)] := by simp [inputs]
      rw [e1, after_snoc, played_snoc]
      simp only [Reacts.step, poly, List.map_append, List.map_map, List.flatMap_append]
      have h1 := ih.1
      have h2 := ih.2
      simp only [poly] at h1 h2
      rw [h1, h2]
      refine ⟨rfl, ?_⟩
      congr 1
      simp [answer, Function.comp_def]

/-- **C71** what has come out of the generated code, in order, is what `played` says -/
theorem code_plays {n : Nat} {a2 : ℚ} {c : Ctx} (hn : 0 < n) (hN : Names c) (tab : Nat → List ℚ)
    (htab : ∀ t < 3, tab t = List.replicate n 0) {M : Mach} (hM : Code n a2 c M) {es : List Ev} (he : ∀ e ∈ es, Fits e) {s : St}
    (hr : Runs M drv (start c (nodes n a2) tab) es s) : s.log.map (·.2) = (played n (a2 ≠ 0) (inputs es)).flatMap Note.out := by
  rw [((poly_partial hn hN tab htab hM).same es he s hr).1]
  exact (after_inputs n _ es).2

/-! ## the invariant -/

/-- no message clears the voices -/
def NoClear (hist : List (Nat × Msg)) : Prop := ∀ e ∈ hist, e ≠ (0, [.sym "clear"])

/-- no message ends all voices -/
def NoStop (hist : List (Nat × Msg)) : Prop := ∀ e ∈ hist, e ≠ (0, [.sym "stop"])

/-- what voice `i` is doing -/
def doing (A : Alloc) (i : Nat) : Option ℚ := (A.voices[i]?).bind fun v => if v.used then some v.pitch else none

theorem hear_append (xs ys : List Note) : heard (xs ++ ys) = ys.foldl hear (heard xs) := by simp [heard, List.foldl_append]

theorem proper_append {n : Nat} (xs ys : List Note) (h : Nat → Option ℚ) :
    Proper n h (xs ++ ys) ↔ Proper n h xs ∧ Proper n (xs.foldl hear h) ys := by
  induction xs generalizing h with
  | nil => simp [Proper]
  | cons x xs ih => simp [Proper, ih, and_assoc]

/-- one message -/
structure Good (n : Nat) (A A' : Alloc) (xs : List Note) : Prop where
  len : A'.voices.length = n
  proper : Proper n (doing A) xs
  heard : xs.foldl hear (doing A) = doing A'

theorem doing_change {A : Alloc} {i : Nat} {p : ℚ} {b : Bool} (hi : i < A.voices.length) (j : Nat) :
    doing (A.change i p b) j = if j = i then (if b then some p else none) else doing A j := by
  by_cases h : j = i
  · subst h
    simp [doing, Alloc.change, hi]
  · simp [doing, Alloc.change, h, List.getElem?_set_ne (Ne.symm h)]

theorem oldest_some {P : Voice → Bool} {vs : List Voice} {i : Nat} (h : oldest P vs = some i) :
    ∃ v, vs[i]? = some v ∧ P v = true ∧ ∀ j w, vs[j]? = some w → P w = true → v.id ≤ w.id ∧ (j < i → v.id < w.id) :=
  oldest_iff.mp h

theorem oldest_none {P : Voice → Bool} {vs : List Voice} (h : oldest P vs = none) : ∀ v ∈ vs, P v = false := oldest_iff.mp h

theorem note_good {n : Nat} {A : Alloc} (hl : A.voices.length = n) (steal : Bool) (p v : ℚ) :
    Good n A (A.note steal p v).1 (A.note steal p v).2 := by
  have lt : ∀ {P : Voice → Bool} {i}, oldest P A.voices = some i → i < A.voices.length := fun h => by
    obtain ⟨w, hw, -⟩ := oldest_some h
    exact (List.getElem?_eq_some_iff.mp hw).1
  unfold Alloc.note
  split
  · next hv =>
    split
    · next i hi =>
      obtain ⟨w, hw, hP, -⟩ := oldest_some hi
      refine ⟨by simpa [Alloc.change] using hl, ⟨by rw [← hl]; exact lt hi, ?_, trivial⟩, ?_⟩
      · rw [if_pos hv]; simp only [Bool.not_eq_true'] at hP; simp [doing, hw, hP]
      · funext j
        simp only [List.foldl_cons, List.foldl_nil, hear, hv, if_true, doing_change (lt hi)]
    · next hno =>
      split
      · next i hi =>
        split at hi
        · obtain ⟨w, hw, hP, -⟩ := oldest_some hi
          have hd : doing A i = some w.pitch := by simp [doing, hw, hP]
          refine ⟨by simpa [Alloc.change] using hl, ⟨by rw [← hl]; exact lt hi, ?_, by rw [← hl]; exact lt hi, ?_, trivial⟩, ?_⟩
          · simp [hd, hw]
          · rw [if_pos hv]; simp [hear]
          · funext j
            simp only [List.foldl_cons, List.foldl_nil, hear, hv, if_true, doing_change (lt hi)]
            by_cases hj : j = i <;> simp [hj]
        · cases hi
      · exact ⟨hl, trivial, rfl⟩
  · next hv =>
    split
    · next i hi =>
      obtain ⟨w, hw, hP, -⟩ := oldest_some hi
      simp only [Bool.and_eq_true, decide_eq_true_eq] at hP
      refine ⟨by simpa [Alloc.change] using hl, ⟨by rw [← hl]; exact lt hi, ?_, trivial⟩, ?_⟩
      · simp [doing, hw, hP.1, hP.2]
      · funext j
        simp only [List.foldl_cons, List.foldl_nil, hear, doing_change (lt hi)]
        simp
    · exact ⟨hl, trivial, rfl⟩

/-- ending voices one after the other -/
theorem ends_good {n : Nat} (xs : List Note) (h : Nat → Option ℚ) (hx : ∀ x ∈ xs, x.vel = 0 ∧ x.voice < n ∧ h x.voice = some x.pitch)
    (hd : xs.Pairwise fun x y => x.voice ≠ y.voice) :
    Proper n h xs ∧ ∀ j, xs.foldl hear h j = if j ∈ xs.map (·.voice) then none else h j := by
  induction xs generalizing h with
  | nil => exact ⟨trivial, fun j => by simp⟩
  | cons x xs ih =>
    obtain ⟨h1, h2⟩ := List.pairwise_cons.mp hd
    obtain ⟨a, b, cc⟩ := hx x (List.mem_cons_self ..)
    have e : hear h x = fun i => if i = x.voice then none else h i := by funext i; simp [hear, a]
    obtain ⟨k1, k2⟩ := ih (hear h x) (fun y hy => by
      obtain ⟨a', b', c'⟩ := hx y (List.mem_cons_of_mem _ hy)
      refine ⟨a', b', ?_⟩
      rw [e]; simp only [(h1 y hy).symm, if_false, c']) h2
    refine ⟨⟨b, by simpa [a] using cc, k1⟩, fun j => ?_⟩
    rw [List.foldl_cons, k2 j, e, List.map_cons]
    simp only [List.mem_cons]
    by_cases hj : j = x.voice <;> by_cases hm : j ∈ xs.map (·.voice) <;> simp [hj, hm]

theorem stop_good {n : Nat} {A : Alloc} (hl : A.voices.length = n) : Good n A A.stop.1 A.stop.2 ∧ ∀ i, doing A.stop.1 i = none := by
  have mem : ∀ x, x ∈ A.stop.2 ↔ ∃ i v, A.voices[i]? = some v ∧ v.used = true ∧ x = ⟨0, v.pitch, i⟩ := by
    intro x
    simp only [Alloc.stop, List.mem_map, List.mem_filter, Prod.exists, List.mem_zipIdx_iff_getElem?]
    constructor
    · rintro ⟨v, i, ⟨h1, h2⟩, rfl⟩; exact ⟨i, v, h1, h2, rfl⟩
    · rintro ⟨i, v, h1, h2, rfl⟩; exact ⟨v, i, ⟨h1, h2⟩, rfl⟩
  have silent : ∀ i, doing A.stop.1 i = none := by
    intro i
    simp only [doing, Alloc.stop, List.getElem?_map]
    cases A.voices[i]? <;> simp
  have hnd : A.stop.2.Pairwise fun x y => x.voice ≠ y.voice := by
    simp only [Alloc.stop, List.pairwise_map]
    have := List.nodup_range (n := A.voices.length)
    refine List.Pairwise.filter _ ?_
    rw [List.pairwise_iff_getElem]
    intro i j hi hj hij
    simp
    omega
  obtain ⟨h1, h2⟩ := ends_good (n := n) A.stop.2 (doing A) (fun x hx => by
    obtain ⟨i, v, h1, h2, rfl⟩ := (mem x).mp hx
    exact ⟨rfl, by rw [← hl]; exact (List.getElem?_eq_some_iff.mp h1).1, by simp [doing, h1, h2]⟩) hnd
  refine ⟨⟨by simpa [Alloc.stop] using hl, h1, ?_⟩, silent⟩
  funext j
  rw [h2, silent]
  split
  · rfl
  · next hj =>
    by_contra hc
    obtain ⟨q, hq⟩ := Option.ne_none_iff_exists'.mp hc
    simp only [doing] at hq
    cases hv : A.voices[j]? with
    | none => simp [hv] at hq
    | some v =>
      simp only [hv, Option.bind_some, Option.ite_none_right_eq_some] at hq
      exact hj (List.mem_map.mpr ⟨⟨0, v.pitch, j⟩, (mem _).mpr ⟨j, v, hv, hq.1, rfl⟩, rfl⟩)

theorem on_good {n : Nat} {A : Alloc} (hl : A.voices.length = n) (steal : Bool) (e : Nat × Msg) (he : e ≠ (0, [.sym "clear"])) :
    Good n A (A.on steal e.1 e.2).1 (A.on steal e.1 e.2).2 := by
  have triv : Good n A A [] := ⟨hl, trivial, rfl⟩
  obtain ⟨i, m⟩ := e
  simp only [Alloc.on]
  split
  · split
    · exact note_good hl steal _ _
    · exact triv
  · next p v =>
    have := note_good (A := { A with vel := some v }) hl steal p v
    exact ⟨this.len, this.proper, this.heard⟩
  · exact ⟨hl, trivial, rfl⟩
  · next x =>
    split
    · exact (stop_good hl).1
    · split
      · next h => exact absurd (by rw [h]) he
      · exact triv
  · exact triv

/-- the notes so far, and the voices -/
theorem after_good (n : Nat) (steal : Bool) (hist : List (Nat × Msg)) (h : NoClear hist) :
    (after n steal hist).1.voices.length = n ∧ Proper n (fun _ => none) (played n steal hist) ∧
      heard (played n steal hist) = doing (after n steal hist).1 := by
  induction hist using List.reverseRecOn with
  | nil =>
    refine ⟨by simp [after, Alloc.new], trivial, ?_⟩
    funext i
    simp only [played, after, List.foldl_nil, heard, doing, Alloc.new, List.getElem?_replicate]
    split <;> simp
  | append_singleton hist e ih =>
    obtain ⟨h1, h2, h3⟩ := ih fun x hx => h x (List.mem_append_left _ hx)
    have g := on_good h1 steal e (h e (List.mem_append_right _ (List.mem_singleton.mpr rfl)))
    rw [played_snoc, after_snoc]
    refine ⟨g.len, (proper_append _ _ _).mpr ⟨h2, ?_⟩, ?_⟩
    · have : (played n steal hist).foldl hear (fun _ => none) = doing (after n steal hist).1 := h3
      rw [this]; exact g.proper
    · rw [hear_append, h3]; exact g.heard

/-! ## C71 -/

/-- **C71** without `clear`, whatever else is sent: every note goes to one of the `n` voices; a voice is started only while it is
silent; it is ended only while it sounds, with the pitch it was started with -/
theorem poly_proper (n : Nat) (steal : Bool) (hist : List (Nat × Msg)) (h : NoClear hist) :
    Proper n (fun _ => none) (played n steal hist) := (after_good n steal hist h).2.1

/-- a note with a pitch and a velocity -/
def noteMsg (p v : ℚ) : Nat × Msg := (0, [.float p, .float v])

theorem answer_note (n : Nat) (steal : Bool) (hist : List (Nat × Msg)) (p v : ℚ) :
    answer n steal hist (noteMsg p v) = (({ (after n steal hist).1 with vel := some v } : Alloc).note steal p v).2 := rfl

theorem doing_none {A : Alloc} {n i : Nat} (hl : A.voices.length = n) (hi : i < n) (h : doing A i = none) :
    ∃ v, A.voices[i]? = some v ∧ v.used = false := by
  have hg := List.getElem?_eq_getElem (l := A.voices) (i := i) (by omega)
  refine ⟨_, hg, ?_⟩
  simpa [doing, hg] using h

theorem doing_some {A : Alloc} {i : Nat} {q : ℚ} (h : doing A i = some q) :
    ∃ v, A.voices[i]? = some v ∧ v.used = true ∧ v.pitch = q := by
  simp only [doing] at h
  cases hv : A.voices[i]? with
  | none => simp [hv] at h
  | some v =>
    simp only [hv, Option.bind_some, Option.ite_none_right_eq_some, Option.some.injEq] at h
    exact ⟨v, rfl, h.1, h.2⟩

/-- **C71** as long as a voice is silent, a note is played, on a silent voice -/
theorem free_voice_plays (n : Nat) (steal : Bool) (hist : List (Nat × Msg)) (h : NoClear hist) {p v : ℚ} (hv : 0 < v) {i : Nat} (hi : i < n)
    (hs : heard (played n steal hist) i = none) :
    ∃ j, j < n ∧ heard (played n steal hist) j = none ∧ answer n steal hist (noteMsg p v) = [⟨v, p, j⟩] := by
  obtain ⟨h1, -, h3⟩ := after_good n steal hist h
  rw [h3] at hs ⊢
  obtain ⟨w, hw, hu⟩ := doing_none h1 hi hs
  rw [answer_note]
  simp only [Alloc.note, hv, if_true]
  cases ho : oldest (fun x => !x.used) (after n steal hist).1.voices with
  | none => simpa [hu] using oldest_none ho w (List.mem_of_getElem? hw)
  | some j =>
    obtain ⟨u, hu1, hu2, -⟩ := oldest_some ho
    refine ⟨j, ?_, ?_, rfl⟩
    · rw [← h1]; exact (List.getElem?_eq_some_iff.mp hu1).1
    · simp only [Bool.not_eq_true'] at hu2
      simp [doing, hu1, hu2]

/-- **C71** if all voices sound and stealing is off, nothing happens -/
theorem full_ignored (n : Nat) (hist : List (Nat × Msg)) (h : NoClear hist) {p v : ℚ} (hv : 0 < v)
    (hs : ∀ i < n, heard (played n false hist) i ≠ none) : answer n false hist (noteMsg p v) = [] := by
  obtain ⟨h1, -, h3⟩ := after_good n false hist h
  rw [answer_note]
  simp only [Alloc.note, hv, if_true]
  cases ho : oldest (fun x => !x.used) (after n false hist).1.voices with
  | none => simp
  | some j =>
    obtain ⟨u, hu1, hu2, -⟩ := oldest_some ho
    have hj := (List.getElem?_eq_some_iff.mp hu1).1
    refine absurd ?_ (hs j (by omega))
    rw [h3]
    simp only [Bool.not_eq_true'] at hu2
    simp [doing, hu1, hu2]

/-- **C71** if all voices sound and stealing is on, one of them is ended and gets the note -/
theorem full_steals (n : Nat) (hn : 0 < n) (hist : List (Nat × Msg)) (h : NoClear hist) {p v : ℚ} (hv : 0 < v)
    (hs : ∀ i < n, heard (played n true hist) i ≠ none) :
    ∃ j q, j < n ∧ heard (played n true hist) j = some q ∧ answer n true hist (noteMsg p v) = [⟨0, q, j⟩, ⟨v, p, j⟩] := by
  obtain ⟨h1, -, h3⟩ := after_good n true hist h
  rw [h3] at hs ⊢
  rw [answer_note]
  simp only [Alloc.note, hv, if_true]
  cases ho : oldest (fun x => !x.used) (after n true hist).1.voices with
  | some j =>
    obtain ⟨u, hu1, hu2, -⟩ := oldest_some ho
    have hj := (List.getElem?_eq_some_iff.mp hu1).1
    simp only [Bool.not_eq_true'] at hu2
    exact absurd (by simp [doing, hu1, hu2]) (hs j (by omega))
  | none =>
    cases h2 : oldest (fun x => x.used) (after n true hist).1.voices with
    | none =>
      have hg := List.getElem?_eq_getElem (l := (after n true hist).1.voices) (i := 0) (by omega)
      have a := oldest_none ho _ (List.mem_of_getElem? hg)
      have b := oldest_none h2 _ (List.mem_of_getElem? hg)
      simp only [Bool.not_eq_eq_eq_not, Bool.not_false] at a
      rw [a] at b; cases b
    | some j =>
      obtain ⟨u, hu1, hu2, -⟩ := oldest_some h2
      refine ⟨j, u.pitch, ?_, ?_, ?_⟩
      · rw [← h1]; exact (List.getElem?_eq_some_iff.mp hu1).1
      · simp only [doing, hu1, hu2, Option.bind_some, if_true]
      · simp [hu1]

/-- **C71** a note with velocity 0 (or less) ends one voice that sounds with this pitch, if there is one; else nothing happens -/
theorem release_ends (n : Nat) (steal : Bool) (hist : List (Nat × Msg)) (h : NoClear hist) {p v : ℚ} (hv : ¬ 0 < v) :
    (∃ j, j < n ∧ heard (played n steal hist) j = some p ∧ answer n steal hist (noteMsg p v) = [⟨0, p, j⟩]) ∨
      ((∀ i < n, heard (played n steal hist) i ≠ some p) ∧ answer n steal hist (noteMsg p v) = []) := by
  obtain ⟨h1, -, h3⟩ := after_good n steal hist h
  rw [h3, answer_note]
  simp only [Alloc.note, hv, if_false]
  cases ho : oldest (fun x => x.used && decide (x.pitch = p)) (after n steal hist).1.voices with
  | some j =>
    obtain ⟨u, hu1, hu2, -⟩ := oldest_some ho
    have hj := (List.getElem?_eq_some_iff.mp hu1).1
    simp only [Bool.and_eq_true, decide_eq_true_eq] at hu2
    exact .inl ⟨j, by omega, by simp [doing, hu1, hu2.1, hu2.2], rfl⟩
  | none =>
    refine .inr ⟨fun i hi hd => ?_, rfl⟩
    obtain ⟨w, hw, hu, hp⟩ := doing_some hd
    simpa [hu, hp] using oldest_none ho w (List.mem_of_getElem? hw)

/-- **C71** after `stop` nothing sounds -/
theorem stop_silences (n : Nat) (steal : Bool) (hist : List (Nat × Msg)) (h : NoClear hist) (i : Nat) :
    heard (played n steal (hist ++ [(0, [.sym "stop"])])) i = none := by
  have h' : NoClear (hist ++ [(0, [.sym "stop"])]) := fun e he => by
    rcases List.mem_append.mp he with he | he
    · exact h e he
    · rw [List.mem_singleton.mp he]; simp
  rw [(after_good n steal _ h').2.2, after_snoc]
  exact (stop_good (after_good n steal hist h).1).2 i

/-! ## which voice -/

theorem lastAt_snoc (xs : List Note) (x : Note) (i : Nat) :
    lastAt (xs ++ [x]) i = if x.voice = i then xs.length + 1 else lastAt xs i := by
  simp only [lastAt, List.reverse_append, List.reverse_cons, List.reverse_nil, List.nil_append, List.singleton_append,
    List.findIdx?_cons, List.length_append, List.length_cons, List.length_nil]
  by_cases h : x.voice = i
  · simp [h]
  · simp only [h, decide_false, if_false, Bool.false_eq_true]
    cases hf : List.findIdx? (fun x => decide (x.voice = i)) xs.reverse with
    | none => simp
    | some k => simp

theorem lastAt_le (xs : List Note) (i : Nat) : lastAt xs i ≤ xs.length := by
  unfold lastAt
  split <;> omega

/-- before the numbers of changes are used up they tell the order -/
structure Ord (A : Alloc) (xs : List Note) : Prop where
  next : A.next ≤ xs.length
  fresh : ∀ i v, A.voices[i]? = some v → lastAt xs i = 0 → v.used = false ∧ v.id = 0
  touched : ∀ i v, A.voices[i]? = some v → lastAt xs i ≠ 0 → v.id < A.next ∧ (v.used = false → 0 < v.id)
  order : ∀ i j v w, A.voices[i]? = some v → A.voices[j]? = some w → lastAt xs i ≠ 0 → lastAt xs i < lastAt xs j → v.id < w.id

theorem Ord.change {A : Alloc} {xs : List Note} (h : Ord A xs) (hx : xs.length < 65535) {i : Nat} {p : ℚ} {b : Bool}
    (hb : b = false → 0 < A.next) {ys : List Note} (hy : (∃ x, ys = [x] ∧ x.voice = i) ∨ ∃ x y, ys = [x, y] ∧ x.voice = i ∧ y.voice = i) :
    Ord (A.change i p b) (xs ++ ys) := by
  have hmod : A.next % 65535 = A.next := Nat.mod_eq_of_lt (by have := h.next; omega)
  obtain ⟨hlen, hlast⟩ : xs.length < (xs ++ ys).length ∧ ∀ j, lastAt (xs ++ ys) j = if i = j then (xs ++ ys).length else lastAt xs j := by
    rcases hy with ⟨x, rfl, rfl⟩ | ⟨x, y, rfl, rfl, hy⟩
    · exact ⟨by simp, fun j => by rw [lastAt_snoc]; simp⟩
    · refine ⟨by simp, fun j => ?_⟩
      have e : xs ++ [x, y] = (xs ++ [x]) ++ [y] := by simp
      rw [e, lastAt_snoc, lastAt_snoc, hy]
      by_cases hj : x.voice = j <;> simp [hj]
  have look : ∀ j v, (A.change i p b).voices[j]? = some v → (j = i ∧ v = ⟨p, b, A.next⟩) ∨ (j ≠ i ∧ A.voices[j]? = some v) := by
    intro j v hv
    simp only [Alloc.change, hmod] at hv
    by_cases hj : j = i
    · subst hj
      rw [List.getElem?_set_self'] at hv
      cases hg : A.voices[j]? with
      | none => simp [hg] at hv
      | some w => simp [hg] at hv; exact .inl ⟨rfl, hv.symm⟩
    · exact .inr ⟨hj, by rwa [List.getElem?_set_ne (Ne.symm hj)] at hv⟩
  have hnext : (A.change i p b).next = A.next + 1 := by simp [Alloc.change, hmod]
  refine ⟨?_, ?_, ?_, ?_⟩
  · rw [hnext]; have := h.next; omega
  · intro j v hv hl
    rw [hlast] at hl
    rcases look j v hv with ⟨rfl, rfl⟩ | ⟨hj, hv⟩
    · simp only [if_true] at hl; omega
    · rw [if_neg (Ne.symm hj)] at hl
      exact h.fresh j v hv hl
  · intro j v hv hl
    rw [hlast] at hl
    rw [hnext]
    rcases look j v hv with ⟨rfl, rfl⟩ | ⟨hj, hv⟩
    · exact ⟨Nat.lt_succ_self _, hb⟩
    · rw [if_neg (Ne.symm hj)] at hl
      have := h.touched j v hv hl
      exact ⟨by omega, this.2⟩
  · intro j k v w hv hw hl hlt
    rw [hlast] at hl
    rw [hlast, hlast] at hlt
    rcases look j v hv with ⟨rfl, rfl⟩ | ⟨hj, hv⟩
    · simp only [if_true] at hlt
      split at hlt
      · omega
      · have := lastAt_le xs k; omega
    · rw [if_neg (Ne.symm hj)] at hl hlt
      rcases look k w hw with ⟨rfl, rfl⟩ | ⟨hk, hw⟩
      · exact (h.touched j v (by assumption) hl).1
      · rw [if_neg (Ne.symm hk)] at hlt
        exact h.order j k v w hv hw hl hlt

theorem Ord.vel {A : Alloc} {xs : List Note} (h : Ord A xs) (v : Option ℚ) : Ord { A with vel := v } xs := ⟨h.next, h.fresh, h.touched, h.order⟩

theorem Ord.note {A : Alloc} {xs : List Note} (h : Ord A xs) (hx : xs.length < 65535) (steal : Bool) (p v : ℚ) :
    Ord (A.note steal p v).1 (xs ++ (A.note steal p v).2) := by
  unfold Alloc.note
  split
  · split
    · next i hi => exact h.change hx (by simp) (.inl ⟨_, rfl, rfl⟩)
    · split
      · next i hi =>
        exact h.change hx (by simp) (.inr ⟨_, _, rfl, rfl, rfl⟩)
      · simpa using h
  · split
    · next i hi =>
      refine h.change hx (fun _ => ?_) (.inl ⟨_, rfl, rfl⟩)
      obtain ⟨w, hw, hP, -⟩ := oldest_some hi
      simp only [Bool.and_eq_true, decide_eq_true_eq] at hP
      by_cases hl : lastAt xs i = 0
      · have := (h.fresh i w hw hl).1
        rw [hP.1] at this; cases this
      · have := (h.touched i w hw hl).1
        omega
    · simpa using h

theorem after_ord (n : Nat) (steal : Bool) (hist : List (Nat × Msg)) (hc : NoClear hist) (hs : NoStop hist)
    (hx : (played n steal hist).length < 65535) : Ord (after n steal hist).1 (played n steal hist) := by
  induction hist using List.reverseRecOn with
  | nil =>
    refine ⟨by simp [after, Alloc.new], fun i v hv _ => ?_, fun i v _ h => absurd rfl h, fun i j v w _ _ h => absurd rfl h⟩
    simp only [after, List.foldl_nil, Alloc.new, List.getElem?_replicate] at hv
    split at hv
    · simp only [Option.some.injEq] at hv; subst hv; exact ⟨rfl, rfl⟩
    · cases hv
  | append_singleton hist e ih =>
    rw [played_snoc, List.length_append] at hx
    have h := ih (fun x hx => hc x (List.mem_append_left _ hx)) (fun x hx => hs x (List.mem_append_left _ hx)) (by omega)
    have hce := hc e (List.mem_append_right _ (List.mem_singleton.mpr rfl))
    have hse := hs e (List.mem_append_right _ (List.mem_singleton.mpr rfl))
    have hx' : (played n steal hist).length < 65535 := by omega
    rw [played_snoc, after_snoc]
    simp only [answer]
    clear hx ih
    generalize (after n steal hist).1 = A at h
    obtain ⟨i, m⟩ := e
    have triv : Ord A (played n steal hist ++ []) := by simpa using h
    simp only [Alloc.on]
    split
    · split
      · exact h.note hx' steal _ _
      · exact triv
    · exact (h.vel _).note hx' steal _ _
    · exact triv.vel _
    · next x =>
      split
      · next hst => exact absurd (by rw [hst]) hse
      · split
        · next hcl => exact absurd (by rw [hcl]) hce
        · exact triv
    · exact triv

theorem ord_min {A : Alloc} {xs : List Note} (h : Ord A xs) {P : Voice → Bool} {j : Nat} (hj : oldest P A.voices = some j)
    (hP : (∀ v, P v = true → v.used = true) ∨ ∀ v, P v = true → v.used = false) {i : Nat} {w : Voice} (hw : A.voices[i]? = some w)
    (hi : P w = true) : lastAt xs j ≤ lastAt xs i := by
  obtain ⟨v, hv, hPv, hmin⟩ := oldest_some hj
  have hm := (hmin i w hw hi).1
  by_contra hc
  by_cases h0 : lastAt xs i = 0
  · have hf := h.fresh i w hw h0
    rcases hP with hP | hP
    · have := hP w hi; rw [hf.1] at this; cases this
    · have := (h.touched j v hv (by omega)).2 (hP v hPv)
      omega
  · have := h.order i j w v hw hv h0 (by omega)
    omega

/-- **C71** a note goes to the voice that has been silent for longest (one never used, if there is one): until 65535 notes have come
out, if `stop` and `clear` are not used -/
theorem longest_silent (n : Nat) (steal : Bool) (hist : List (Nat × Msg)) (hc : NoClear hist) (hs : NoStop hist)
    (hx : (played n steal hist).length < 65535) {p v : ℚ} (hv : 0 < v) {j : Nat} (hj : answer n steal hist (noteMsg p v) = [⟨v, p, j⟩])
    {i : Nat} (hi : i < n) (hs : heard (played n steal hist) i = none) :
    lastAt (played n steal hist) j ≤ lastAt (played n steal hist) i := by
  obtain ⟨h1, -, h3⟩ := after_good n steal hist hc
  have ho := after_ord n steal hist hc (by assumption) hx
  rw [h3] at hs
  obtain ⟨w, hw, hu⟩ := doing_none h1 hi hs
  rw [answer_note] at hj
  simp only [Alloc.note, hv, if_true] at hj
  split at hj
  · next k hk =>
    simp only [List.cons.injEq, Note.mk.injEq, true_and, and_true] at hj
    subst hj
    exact ord_min ho hk (.inr fun v h => by simpa using h) hw (by simp [hu])
  · split at hj <;> simp at hj

/-- **C71** with stealing, the voice that has been sounding for longest is ended -/
theorem steals_oldest (n : Nat) (hist : List (Nat × Msg)) (hc : NoClear hist) (hs : NoStop hist)
    (hx : (played n true hist).length < 65535) {p v q : ℚ} (hv : 0 < v) {j : Nat}
    (hj : answer n true hist (noteMsg p v) = [⟨0, q, j⟩, ⟨v, p, j⟩]) {i : Nat} (hi : i < n) :
    lastAt (played n true hist) j ≤ lastAt (played n true hist) i := by
  obtain ⟨h1, -, h3⟩ := after_good n true hist hc
  have ho := after_ord n true hist hc hs hx
  have hg := List.getElem?_eq_getElem (l := (after n true hist).1.voices) (i := i) (by omega)
  rw [answer_note] at hj
  simp only [Alloc.note, hv, if_true] at hj
  split at hj
  · simp at hj
  · next hno =>
    split at hj
    · next k hk =>
      simp only [List.cons.injEq, Note.mk.injEq, true_and, and_true] at hj
      obtain ⟨⟨-, rfl⟩, -⟩ := hj
      have hu := oldest_none hno _ (List.mem_of_getElem? hg)
      exact ord_min ho hk (.inl fun v h => h) hg (by simpa using hu)
    · simp at hj

/-- **C71** of several voices with the same pitch, the one that has been sounding for longest is ended -/
theorem releases_oldest (n : Nat) (steal : Bool) (hist : List (Nat × Msg)) (hc : NoClear hist) (hs : NoStop hist)
    (hx : (played n steal hist).length < 65535) {p v : ℚ} (hv : ¬ 0 < v) {j : Nat} (hj : answer n steal hist (noteMsg p v) = [⟨0, p, j⟩])
    {i : Nat} (hp : heard (played n steal hist) i = some p) :
    lastAt (played n steal hist) j ≤ lastAt (played n steal hist) i := by
  obtain ⟨h1, -, h3⟩ := after_good n steal hist hc
  have ho := after_ord n steal hist hc hs hx
  rw [h3] at hp
  obtain ⟨w, hw, hu, hwp⟩ := doing_some hp
  rw [answer_note] at hj
  simp only [Alloc.note, hv, if_false] at hj
  split at hj
  · next k hk =>
    simp only [List.cons.injEq, Note.mk.injEq, true_and, and_true] at hj
    subst hj
    exact ord_min ho hk (.inl fun v h => by simp only [Bool.and_eq_true] at h; exact h.1) hw (by simp [hu, hwp])
  · simp at hj

/-! ## what goes wrong -/

/-- **C71** after `stop` the numbers start again, but voices keep theirs: here voice 0 is chosen, which has just been released, while
voice 1 has been silent for longer -/
theorem stop_forgets : ∃ hist, NoClear hist ∧ answer 2 false hist (noteMsg 63 100) = [⟨100, 63, 0⟩] ∧
    heard (played 2 false hist) 1 = none ∧ lastAt (played 2 false hist) 1 < lastAt (played 2 false hist) 0 :=
  ⟨[noteMsg 60 100, noteMsg 60 0, noteMsg 61 100, noteMsg 61 0, (0, [.sym "stop"]), noteMsg 62 100, noteMsg 62 0],
    by unfold NoClear; decide +kernel, by decide +kernel, by decide +kernel, by decide +kernel⟩

/-- **C71** after `clear` a voice that still sounds is started again without having been ended, and a note that sounds can no longer
be ended -/
theorem clear_forgets : ∃ hist, heard (played 1 false hist) 0 = some 60 ∧ answer 1 false hist (noteMsg 61 100) = [⟨100, 61, 0⟩] ∧
    answer 1 false hist (noteMsg 60 0) = [] :=
  ⟨[noteMsg 60 100, (0, [.sym "clear"])], by decide +kernel, by decide +kernel, by decide +kernel⟩

/-- a note is played and released, `k` times -/
def toggles (k : Nat) : List (Nat × Msg) := (List.replicate k [noteMsg 60 100, noteMsg 60 0]).flatten

theorem toggles_succ (k : Nat) : toggles (k + 1) = toggles k ++ [noteMsg 60 100] ++ [noteMsg 60 0] := by
  simp [toggles, List.replicate_succ', List.flatten_append]

theorem toggles_after (k : Nat) (hk : 2 * (2 * (k + 1)) ≤ 65535) :
    (after 2 true (toggles (2 * (k + 1)))).1 = ⟨[⟨60, false, 4 * k + 1⟩, ⟨60, false, 4 * k + 3⟩], 4 * k + 4, some 0⟩ := by
  induction k with
  | zero => decide +kernel
  | succ k ih =>
    have e : 2 * (k + 1 + 1) = (2 * (k + 1) + 1) + 1 := by omega
    rw [e, toggles_succ, toggles_succ, after_snoc, after_snoc, after_snoc, after_snoc, ih (by omega)]
    have m0 : (4 * k + 4) % 65535 = 4 * k + 4 := Nat.mod_eq_of_lt (by omega)
    have m1 : (4 * k + 5) % 65535 = 4 * k + 5 := Nat.mod_eq_of_lt (by omega)
    have m2 : (4 * k + 6) % 65535 = 4 * k + 6 := Nat.mod_eq_of_lt (by omega)
    have m3 : (4 * k + 7) % 65535 = 4 * k + 7 := Nat.mod_eq_of_lt (by omega)
    simp [noteMsg, Alloc.on, Alloc.note, oldest, Alloc.change, m0, m1, m2, m3]
    omega

/-- what leads to the overflow of the numbers: 32767 notes one after the other, then two together -/
def overflow : List (Nat × Msg) := toggles 32767 ++ [noteMsg 60 100] ++ [noteMsg 61 100]

theorem overflow_after : (after 2 true overflow).1 = ⟨[⟨61, true, 0⟩, ⟨60, true, 65534⟩], 1, some 100⟩ ∧
    played 2 true overflow = played 2 true (toggles 32767) ++ [⟨100, 60, 1⟩] ++ [⟨100, 61, 0⟩] := by
  have h := toggles_after 16382 (by omega)
  have h1 : (after 2 true (toggles 32767)).1 = ⟨[⟨60, false, 65533⟩, ⟨60, false, 65531⟩], 65534, some 0⟩ := by
    have e : toggles 32767 = toggles (2 * (16382 + 1)) ++ [noteMsg 60 100] ++ [noteMsg 60 0] := toggles_succ 32766
    rw [e, after_snoc, after_snoc, h]
    decide +kernel
  have h2 : answer 2 true (toggles 32767) (noteMsg 60 100) = [⟨100, 60, 1⟩] := by rw [answer, h1]; decide +kernel
  have h3 : (after 2 true (toggles 32767 ++ [noteMsg 60 100])).1 = ⟨[⟨60, false, 65533⟩, ⟨60, true, 65534⟩], 65535, some 100⟩ := by
    rw [after_snoc, h1]; decide +kernel
  have h4 : answer 2 true (toggles 32767 ++ [noteMsg 60 100]) (noteMsg 61 100) = [⟨100, 61, 0⟩] := by rw [answer, h3]; decide +kernel
  refine ⟨?_, ?_⟩
  · rw [overflow, after_snoc, h3]; decide +kernel
  · rw [overflow, played_snoc, played_snoc, h2, h4]

/-- **C71** the changes are numbered modulo 65535, so once in 65535 changes the order is wrong: here the voice that has just been
started is ended instead of the one that has been sounding for longer -/
theorem overflow_steals_newest : NoClear overflow ∧ NoStop overflow ∧
    answer 2 true overflow (noteMsg 62 100) = [⟨0, 61, 0⟩, ⟨100, 62, 0⟩] ∧
    lastAt (played 2 true overflow) 1 < lastAt (played 2 true overflow) 0 := by
  obtain ⟨h1, h2⟩ := overflow_after
  have mem : ∀ e ∈ overflow, ∃ p v, e = noteMsg p v := by
    intro e he
    simp only [overflow, toggles, List.mem_append, List.mem_flatten, List.mem_replicate, List.mem_singleton] at he
    rcases he with (⟨l, ⟨-, rfl⟩, he⟩ | rfl) | rfl
    · simp only [List.mem_cons, List.not_mem_nil, or_false] at he
      rcases he with rfl | rfl <;> exact ⟨_, _, rfl⟩
    · exact ⟨_, _, rfl⟩
    · exact ⟨_, _, rfl⟩
  refine ⟨fun e he => ?_, fun e he => ?_, ?_, ?_⟩
  · obtain ⟨p, v, rfl⟩ := mem e he
    simp [noteMsg]
  · obtain ⟨p, v, rfl⟩ := mem e he
    simp [noteMsg]
  · rw [answer, h1]; decide +kernel
  · rw [h2, lastAt_snoc, lastAt_snoc, lastAt_snoc]
    simp

/-! ## the hypotheses can be met -/

/-- the tables of the first [poly] in a patch -/
example (c : Ctx) (h : c.tabId = fun x => if x = "1-pitches" then some 0 else if x = "1-used" then some 1 else if x = "1-ids" then some 2 else none) :
    Names c := ⟨by simp [h], by simp [h], by simp [h]⟩

/-- there is code for a [poly 8 1] -/
example (c : Ctx) : ∃ M, Code (8 : Nat) 1 c M := code_exists _ _ c

/-- two voices, both sound; a third note -/
example : NoClear [noteMsg 60 100, noteMsg 64 90] ∧ NoStop [noteMsg 60 100, noteMsg 64 90] ∧
    (∀ i < 2, heard (played 2 true [noteMsg 60 100, noteMsg 64 90]) i ≠ none) ∧
    answer 2 true [noteMsg 60 100, noteMsg 64 90] (noteMsg 67 80) = [⟨0, 60, 0⟩, ⟨80, 67, 0⟩] ∧
    answer 2 false [noteMsg 60 100, noteMsg 64 90] (noteMsg 67 80) = [] :=
  ⟨by unfold NoClear; decide +kernel, by unfold NoStop; decide +kernel, by decide +kernel, by decide +kernel, by decide +kernel⟩

/-- one of two voices sounds; a second note; then the first is released -/
example : NoClear [noteMsg 60 100] ∧ heard (played 2 false [noteMsg 60 100]) 1 = none ∧
    answer 2 false [noteMsg 60 100] (noteMsg 64 90) = [⟨90, 64, 1⟩] ∧
    heard (played 2 false [noteMsg 60 100]) 0 = some 60 ∧ answer 2 false [noteMsg 60 100] (noteMsg 60 0) = [⟨0, 60, 0⟩] :=
  ⟨by unfold NoClear; decide +kernel, by decide +kernel, by decide +kernel, by decide +kernel, by decide +kernel⟩

end Verif.Lib.Poly
