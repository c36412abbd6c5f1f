import Verif.PdLibSig
import Verif.Props.PdBinop
/-!
# C94: messages at the inlets of signal boxes: what the boxes hear, and in which order the messages go out
-/
namespace Verif.PdBinop
open Verif.Reduce

/-! ### the specification -/

section Spec

/-- the inlet that a cable leads to in the end: an object that was not on the canvas (its number is `N` or more) hands on to the inlet that its
own cable leads to -/
def goal (N : Nat) (cs : List Conn) (c : Conn) : Nat × Nat :=
  if c.dst < N then (c.dst, c.inlet)
  else match cs.find? (fun d => d.src = c.dst) with
    | some d => (d.dst, d.inlet)
    | none => (c.dst, c.inlet)

/-- the inlets that a message from outlet `j` of `p` gets to, one after the other -/
def goals (N : Nat) (cs : List Conn) (p j : Nat) : List (Nat × Nat) := (cs.filter (·.from p j)).map (goal N cs)

/-- does this box, for the canvas `C`, need a `sig~` at its inlet?  An operator at the left inlet always if no signal comes there, at the right one
if it has no argument and only messages come; a box of the library at the first inlet if only messages come -/
def needs {α : Type} (args : Nat → Bool) (C : Canvas α) : Box → List (Nat × Nat)
  | .op o => (if hasSignal (C.into o 0) then [] else [(o, 0)]) ++
      if hasSignal (C.into o 1) = false ∧ args o = false ∧ C.into o 1 ≠ [] then [(o, 1)] else []
  | .lib o => if hasSignal (C.into o 0) = false ∧ C.into o 0 ≠ [] then [(o, 0)] else []

end Spec

variable {α μ : Type} [Field α] [DecidableEq α] {W : World α μ} {log : Nat → List (Sent μ)} {v : Nat → Nat → Nat → α}

/-! ### the cables after one `convert`, in order -/

/-- a cable of messages to that inlet -/
def isCtl (o i : Nat) (c : Conn) : Prop := c.into o i ∧ c.ty = .c

instance (o i : Nat) (c : Conn) : Decidable (isCtl o i c) := inferInstanceAs (Decidable (_ ∧ _))

theorem fold_exact (n : Nat) (P : Conn → Prop) [DecidablePred P] : ∀ (A K E : List Conn), (∀ c ∈ K, ¬ P c) →
    (A.filter P).foldl (fun cs c => (cs ++ [moved n c]).erase c) (K ++ A ++ E) =
      K ++ A.filter (fun c => ¬ P c) ++ E ++ (A.filter P).map (moved n) := by
  intro A
  induction A with
  | nil => intro K E _; simp
  | cons a A ih =>
    intro K E hK
    by_cases h : P a
    · have hn : a ∉ K := fun hm => hK a hm h
      rw [List.filter_cons_of_pos (by simpa using h), List.foldl_cons, List.filter_cons_of_neg (by simpa using h)]
      have : ((K ++ a :: A ++ E) ++ [moved n a]).erase a = K ++ A ++ (E ++ [moved n a]) := by
        simp [List.erase_append_right _ hn]
      rw [this, ih _ _ hK]
      simp
    · rw [List.filter_cons_of_neg (by simpa using h), List.filter_cons_of_pos (by simpa using h)]
      have := ih (K ++ [a]) E (by
        intro c hc
        rcases List.mem_append.1 hc with hc | hc
        · exact hK c hc
        · rw [List.mem_singleton.1 hc]; exact h)
      simpa using this

omit [DecidableEq α] in
theorem convert_exact (C : Canvas α) (o i : Nat) :
    (convert o i (C.into o i) C).cs =
      C.cs.filter (fun c => ¬ isCtl o i c) ++ [⟨C.next, 0, o, i, .f⟩] ++ (C.cs.filter (isCtl o i)).map (moved C.next) := by
  have e : ((C.into o i).filter fun c => c.ty = .c) = C.cs.filter (isCtl o i) := by
    unfold Canvas.into isCtl
    rw [List.filter_filter]
    apply List.filter_congr
    intro c _
    simp [and_comm]
  unfold convert
  simp only
  rw [e]
  have := fold_exact C.next (isCtl o i) C.cs [] [⟨C.next, 0, o, i, .f⟩] (by simp)
  simpa using this

/-- one inlet gets a `sig~` -/
def cvt (C : Canvas α) (x : Nat × Nat) : Canvas α := convert x.1 x.2 (C.into x.1 x.2) C

omit [DecidableEq α] in
theorem cvt_next (C : Canvas α) (x : Nat × Nat) : (cvt C x).next = C.next + 1 := rfl

omit [DecidableEq α] in
theorem fold_next (is : List (Nat × Nat)) : ∀ C : Canvas α, (is.foldl cvt C).next = C.next + is.length := by
  induction is with
  | nil => intro C; rfl
  | cons x is ih => intro C; rw [List.foldl_cons, ih, cvt_next, List.length_cons]; omega

theorem fold_into {p j : Nat} (is : List (Nat × Nat)) : ∀ {C : Canvas α}, p < C.next → (p, j) ∉ is →
    ((is.foldl cvt C).into p j).Perm (C.into p j) := by
  induction is with
  | nil => intro C _ _; exact .refl _
  | cons x is ih =>
    intro C hp hx
    rw [List.foldl_cons]
    refine (ih (by rw [cvt_next]; omega) fun h => hx (List.mem_cons_of_mem _ h)).trans ?_
    exact into_convert_other hp fun h => hx (by rw [h.1, h.2]; exact List.mem_cons_self ..)

/-! ### all of them: which inlets get a `sig~` -/

omit [Field α] [DecidableEq α] in
theorem needs_perm {args : Nat → Bool} {C C' : Canvas α} (b : Box) (h0 : (C'.into b.id 0).Perm (C.into b.id 0))
    (h1 : (C'.into b.id 1).Perm (C.into b.id 1)) : needs args C' b = needs args C b := by
  have n0 : C'.into b.id 0 = [] ↔ C.into b.id 0 = [] := ⟨fun e => List.nil_perm.1 (e ▸ h0), fun e => List.perm_nil.1 (e ▸ h0)⟩
  have n1 : C'.into b.id 1 = [] ↔ C.into b.id 1 = [] := ⟨fun e => List.nil_perm.1 (e ▸ h1), fun e => List.perm_nil.1 (e ▸ h1)⟩
  cases b with
  | op o =>
    simp only [Box.id] at *
    simp only [needs, hasSignal_perm h0, hasSignal_perm h1, ne_eq, n1]
  | lib o =>
    simp only [Box.id] at *
    simp only [needs, hasSignal_perm h0, ne_eq, n0]

omit [Field α] [DecidableEq α] in
theorem needs_mem {args : Nat → Bool} {C : Canvas α} {b : Box} {x : Nat × Nat} (h : x ∈ needs args C b) : x.1 = b.id := by
  cases b with
  | op o =>
    rcases List.mem_append.1 h with h | h
    · split at h
      · simp at h
      · rw [List.mem_singleton.1 h]; rfl
    · split at h
      · rw [List.mem_singleton.1 h]; rfl
      · simp at h
  | lib o =>
    simp only [needs] at h
    split at h
    · rw [List.mem_singleton.1 h]; rfl
    · simp at h

omit [Field α] [DecidableEq α] in
theorem needs_nodup {args : Nat → Bool} {C : Canvas α} (b : Box) : (needs args C b).Nodup := by
  cases b with
  | op o => simp only [needs]; split <;> split <;> simp
  | lib o => simp only [needs]; split <;> simp

theorem one_eq {args : Nat → Bool} {C : Canvas α} (b : Box) (hb : b.id < C.next) :
    ∃ e, one args b C = { (needs args C b).foldl cvt C with err := e } := by
  cases b with
  | lib o =>
    by_cases h : hasSignal (C.into o 0) = false ∧ C.into o 0 ≠ []
    · have e1 : one args (.lib o) C = convert o 0 (C.into o 0) C := if_pos h
      have e2 : needs args C (.lib o) = [(o, 0)] := if_pos h
      rw [e1, e2]; exact ⟨C.err, rfl⟩
    · have e1 : one args (.lib o) C = C := if_neg h
      have e2 : needs args C (.lib o) = [] := if_neg h
      rw [e1, e2]; exact ⟨C.err, rfl⟩
  | op o =>
    simp only [Box.id] at hb
    have hl : left o C = (if hasSignal (C.into o 0) then [] else [(o, 0)]).foldl cvt C := by
      unfold left
      rw [hasSig_eq]
      split <;> rfl
    have hp : ((left o C).into o 1).Perm (C.into o 1) := by
      rw [hl]
      exact fold_into _ hb (by split <;> simp)
    have n1 : (left o C).into o 1 = [] ↔ C.into o 1 = [] := ⟨fun e => List.nil_perm.1 (e ▸ hp), fun e => List.perm_nil.1 (e ▸ hp)⟩
    simp only [one, needs]
    rw [List.foldl_append, ← hl]
    unfold right
    rw [hasSig_eq, hasSignal_perm hp]
    by_cases hs : hasSignal (C.into o 1) = true
    · rw [if_pos hs, if_neg (by simp [hs])]
      exact ⟨_, rfl⟩
    · rw [if_neg hs]
      by_cases h2 : args o = false ∧ C.into o 1 ≠ []
      · rw [if_pos ⟨h2.1, fun e => h2.2 (n1.1 e)⟩, if_pos ⟨by simpa using hs, h2⟩]
        exact ⟨(left o C).err, rfl⟩
      · rw [if_neg fun h => h2 ⟨h.1, fun e => h.2 (n1.2 e)⟩, if_neg fun h => h2 h.2]
        exact ⟨(left o C).err, rfl⟩

omit [DecidableEq α] in
theorem fold_err (is : List (Nat × Nat)) : ∀ (C : Canvas α) (e : Bool), is.foldl cvt { C with err := e } = { is.foldl cvt C with err := e } := by
  induction is with
  | nil => intro C e; rfl
  | cons x is ih => intro C e; exact ih (cvt C x) e

theorem validateAll_eq {args : Nat → Bool} (bs : List Box) : ∀ {C : Canvas α}, (bs.map Box.id).Nodup → (∀ b ∈ bs, b.id < C.next) →
    ∃ e, validateAll args bs C = { (bs.flatMap (needs args C)).foldl cvt C with err := e } := by
  induction bs with
  | nil => intro C _ _; exact ⟨C.err, rfl⟩
  | cons b bs ih =>
    intro C hn hb
    obtain ⟨e, he⟩ := one_eq (args := args) b (hb b (by simp))
    rw [List.map_cons, List.nodup_cons] at hn
    have hnext : (one args b C).next = C.next + (needs args C b).length := by rw [he]; exact fold_next _ _
    obtain ⟨e', he'⟩ := ih (C := one args b C) hn.2 fun b' h' => by
      rw [hnext]
      exact lt_of_lt_of_le (hb b' (List.mem_cons_of_mem _ h')) (Nat.le_add_right _ _)
    have hneeds : bs.flatMap (needs args (one args b C)) = bs.flatMap (needs args C) := by
      refine List.flatMap_congr fun b' h' => ?_
      have hne : b'.id ≠ b.id := fun h => hn.1 (h ▸ List.mem_map_of_mem h')
      have hp : ∀ j, ((one args b C).into b'.id j).Perm (C.into b'.id j) := fun j => by
        rw [he]
        exact fold_into _ (hb b' (List.mem_cons_of_mem _ h')) fun h => hne (needs_mem h)
      exact needs_perm b' (hp 0) (hp 1)
    refine ⟨e', ?_⟩
    show validateAll args bs (one args b C) = _
    rw [he', hneeds, List.flatMap_cons, List.foldl_append]
    rw [he, fold_err]

/-! ### the cables afterwards -/

/-- the `sig~` for inlet `x` and the cables to it -/
def block (cs : List Conn) (x : (Nat × Nat) × Nat) : List Conn :=
  ⟨x.2, 0, x.1.1, x.1.2, .f⟩ :: (cs.filter (isCtl x.1.1 x.1.2)).map (moved x.2)

omit [DecidableEq α] in
theorem fold_cs {C : Canvas α} (is : List (Nat × Nat)) (hd : is.Nodup) (hb : ∀ x ∈ is, x.1 < C.next) :
    (is.foldl cvt C).cs = C.cs.filter (fun c => ¬ ∃ x ∈ is, isCtl x.1 x.2 c) ++ (is.zipIdx C.next).flatMap (block C.cs) := by
  induction is using List.reverseRecOn with
  | nil => simp
  | append_singleton is x ih =>
    have hd' := List.nodup_append.1 hd
    have hx : x ∉ is := fun h => hd'.2.2 x h x (by simp) rfl
    have ih := ih hd'.1 fun y hy => hb y (List.mem_append_left _ hy)
    have hxb := hb x (by simp)
    rw [List.foldl_append, List.foldl_cons, List.foldl_nil]
    have hA : ∀ c, isCtl x.1 x.2 c → ¬ ∃ y ∈ is, isCtl y.1 y.2 c := by
      rintro c h ⟨y, hy, h'⟩
      apply hx
      have : x = y := Prod.ext (h.1.1.symm.trans h'.1.1) (h.1.2.symm.trans h'.1.2)
      rw [this]; exact hy
    have hB : ∀ c ∈ (is.zipIdx C.next).flatMap (block C.cs), ¬ isCtl x.1 x.2 c := by
      intro c hc h
      obtain ⟨⟨y, n⟩, hy, hc⟩ := List.mem_flatMap.1 hc
      have hn := (List.mem_zipIdx hy).1
      rcases List.mem_cons.1 hc with rfl | hc
      · exact absurd h.2 (by simp)
      · obtain ⟨d, -, rfl⟩ := List.mem_map.1 hc
        have := h.1.1
        simp only [moved] at this
        omega
    show (convert x.1 x.2 ((is.foldl cvt C).into x.1 x.2) (is.foldl cvt C)).cs = _
    rw [convert_exact, ih, fold_next, List.filter_append, List.filter_append, List.filter_filter, List.filter_filter, List.zipIdx_append,
      List.flatMap_append]
    have e1 : ((is.zipIdx C.next).flatMap (block C.cs)).filter (fun c => decide (¬ isCtl x.1 x.2 c)) =
        (is.zipIdx C.next).flatMap (block C.cs) := List.filter_eq_self.2 fun c hc => by simpa using hB c hc
    have e2 : ((is.zipIdx C.next).flatMap (block C.cs)).filter (fun c => decide (isCtl x.1 x.2 c)) = [] :=
      List.filter_eq_nil_iff.2 fun c hc => by simpa using hB c hc
    have e3 : C.cs.filter (fun c => decide (isCtl x.1 x.2 c) && decide (¬ ∃ y ∈ is, isCtl y.1 y.2 c)) = C.cs.filter (isCtl x.1 x.2) := by
      apply List.filter_congr
      intro c _
      by_cases h : isCtl x.1 x.2 c
      · have h' := hA c h
        simp only [h, h', decide_true, not_false_eq_true, Bool.and_true]
      · simp [h]
    have e4 : C.cs.filter (fun c => decide (¬ isCtl x.1 x.2 c) && decide (¬ ∃ y ∈ is, isCtl y.1 y.2 c)) =
        C.cs.filter (fun c => decide (¬ ∃ y ∈ is ++ [x], isCtl y.1 y.2 c)) := by
      apply List.filter_congr
      intro c _
      rw [← Bool.decide_and, decide_eq_decide]
      constructor
      · rintro ⟨h1, h2⟩ ⟨y, hy, h⟩
        rcases List.mem_append.1 hy with hy | hy
        · exact h2 ⟨y, hy, h⟩
        · rw [List.mem_singleton.1 hy] at h; exact h1 h
      · intro h
        exact ⟨fun h1 => h ⟨x, by simp, h1⟩, fun ⟨y, hy, h1⟩ => h ⟨y, List.mem_append_left _ hy, h1⟩⟩
    rw [e1, e2, e3, e4]
    simp [block]

/-- the inlets of the canvas that get a `sig~`, in order -/
def given {β : Type} (args : Nat → Bool) (bs : List Box) (C : Canvas β) : List (Nat × Nat) := bs.flatMap (needs args C)

omit [Field α] [DecidableEq α] in
theorem given_nodup {args : Nat → Bool} {C : Canvas α} (bs : List Box) (hn : (bs.map Box.id).Nodup) : (given args bs C).Nodup := by
  unfold given
  induction bs with
  | nil => simp
  | cons b bs ih =>
    rw [List.map_cons, List.nodup_cons] at hn
    rw [List.flatMap_cons, List.nodup_append]
    refine ⟨needs_nodup b, ih hn.2, ?_⟩
    rintro x hx y hy rfl
    obtain ⟨b', hb', hy⟩ := List.mem_flatMap.1 hy
    exact hn.1 ((needs_mem hx).symm.trans (needs_mem hy) ▸ List.mem_map_of_mem hb')

/-- **C94** who gets the messages of an outlet, and in which order: first the inlets that need no `sig~`, in the order of the cables on the canvas,
then one by one the inlets that need one, in the order of the boxes in the file -/
theorem order_after_partial {args : Nat → Bool} {bs : List Box} {C : Canvas α} (hC : WF C) (hn : (bs.map Box.id).Nodup)
    (hb : ∀ b ∈ bs, b.id < C.next) {p : Nat} (hp : p < C.next) (j : Nat) :
    goals C.next (validateAll args bs C).cs p j =
      ((C.cs.filter (·.from p j)).filter fun c => ¬ (c.ty = .c ∧ (c.dst, c.inlet) ∈ given args bs C)).map (fun c => (c.dst, c.inlet)) ++
      (given args bs C).flatMap fun x =>
        ((C.cs.filter (·.from p j)).filter fun c => c.ty = .c ∧ (c.dst, c.inlet) = x).map fun c => (c.dst, c.inlet) := by
  obtain ⟨e, he⟩ := validateAll_eq (args := args) bs hn hb
  have hd : (given args bs C).Nodup := given_nodup bs hn
  have hlt : ∀ x ∈ given args bs C, x.1 < C.next := fun x hx => by
    obtain ⟨b, h1, h2⟩ := List.mem_flatMap.1 hx
    rw [needs_mem h2]; exact hb b h1
  have hcs : (validateAll args bs C).cs = C.cs.filter (fun c => ¬ ∃ x ∈ given args bs C, isCtl x.1 x.2 c) ++
      ((given args bs C).zipIdx C.next).flatMap (block C.cs) := by
    rw [he]; exact fold_cs _ hd hlt
  have hgoal : ∀ x n, (x, n) ∈ (given args bs C).zipIdx C.next → ∀ c : Conn, goal C.next (validateAll args bs C).cs (moved n c) = x := by
    intro x n hx c
    have hge := (List.mem_zipIdx hx).1
    have hm : (⟨n, 0, x.1, x.2, .f⟩ : Conn) ∈ (validateAll args bs C).cs := by
      rw [hcs]
      exact List.mem_append_right _ (List.mem_flatMap.2 ⟨(x, n), hx, List.mem_cons_self ..⟩)
    unfold goal
    rw [if_neg (by simp only [moved]; omega)]
    cases hf : (validateAll args bs C).cs.find? (fun d => decide (d.src = (moved n c).dst)) with
    | none => exact absurd (List.find?_eq_none.1 hf _ hm) (by simp [moved])
    | some d =>
      have h1 := List.mem_of_find?_eq_some hf
      have h2 : d.src = n := by
        have h2 := List.find?_some hf
        exact of_decide_eq_true h2
      rw [hcs] at h1
      rcases List.mem_append.1 h1 with h1 | h1
      · have := (hC d (List.mem_filter.1 h1).1).1; omega
      · obtain ⟨⟨y, m⟩, hy, h1⟩ := List.mem_flatMap.1 h1
        rcases List.mem_cons.1 h1 with rfl | h1
        · simp only at h2
          subst h2
          obtain ⟨-, -, hy⟩ := List.mem_zipIdx hy
          obtain ⟨-, -, hx⟩ := List.mem_zipIdx hx
          rw [hx, hy]
        · obtain ⟨d', hd', rfl⟩ := List.mem_map.1 h1
          have := (hC d' (List.mem_filter.1 hd').1).1
          simp only [moved] at h2
          omega
  unfold goals
  have hf : (validateAll args bs C).cs.filter (fun c => decide (c.from p j)) =
      (C.cs.filter (fun c => ¬ ∃ x ∈ given args bs C, isCtl x.1 x.2 c)).filter (fun c => decide (c.from p j)) ++
      (((given args bs C).zipIdx C.next).flatMap (block C.cs)).filter (fun c => decide (c.from p j)) := by rw [hcs, List.filter_append]
  rw [hf, List.map_append]
  congr 1
  · rw [List.filter_filter, List.filter_filter]
    have e1 : (C.cs.filter fun c => decide (c.from p j) && decide (¬ ∃ x ∈ given args bs C, isCtl x.1 x.2 c)) =
        C.cs.filter fun c => decide (¬ (c.ty = .c ∧ (c.dst, c.inlet) ∈ given args bs C)) && decide (c.from p j) := by
      apply List.filter_congr
      intro c _
      rw [Bool.and_comm]
      congr 1
      rw [decide_eq_decide, not_iff_not]
      constructor
      · rintro ⟨x, hx, h⟩
        refine ⟨h.2, ?_⟩
        rw [h.1.1, h.1.2]; exact hx
      · rintro ⟨h1, h2⟩
        exact ⟨_, h2, ⟨rfl, rfl⟩, h1⟩
    rw [e1]
    refine List.map_congr_left fun c hc => ?_
    unfold goal
    rw [if_pos (hC c (List.mem_filter.1 hc).1).2]
  · rw [List.filter_flatMap, List.map_flatMap]
    have key : ∀ z ∈ (given args bs C).zipIdx C.next,
        ((block C.cs z).filter (fun c => decide (c.from p j))).map (goal C.next (validateAll args bs C).cs) =
        ((C.cs.filter (·.from p j)).filter fun c => c.ty = .c ∧ (c.dst, c.inlet) = z.1).map fun c => (c.dst, c.inlet) := by
      rintro ⟨x, n⟩ hz
      have hge := (List.mem_zipIdx hz).1
      unfold block
      rw [List.filter_cons_of_neg (fun h => by have := (of_decide_eq_true h).1; simp only at this; omega), List.filter_map, List.map_map]
      rw [List.filter_filter, List.filter_filter]
      have e1 : (C.cs.filter fun c => ((fun c => decide (c.from p j)) ∘ moved n) c && decide (isCtl x.1 x.2 c)) =
          C.cs.filter fun c => decide (c.ty = .c ∧ (c.dst, c.inlet) = x) && decide (c.from p j) := by
        apply List.filter_congr
        intro c _
        rw [Bool.and_comm]
        congr 1
        rw [decide_eq_decide]
        unfold isCtl Conn.into
        rw [Prod.ext_iff, and_comm]
      rw [e1]
      refine List.map_congr_left fun c hc => ?_
      have hc := (List.mem_filter.1 hc).2
      simp only [Bool.and_eq_true, decide_eq_true_eq] at hc
      rw [Function.comp, hgoal x n hz, hc.1.2]
    rw [List.flatMap_congr key]
    have := List.flatMap_map (f := Prod.fst) (l := (given args bs C).zipIdx C.next) (g := fun x =>
      ((C.cs.filter (·.from p j)).filter fun c => c.ty = .c ∧ (c.dst, c.inlet) = x).map fun c => (c.dst, c.inlet))
    rw [← this]
    simp

/-! ### what the boxes hear -/

theorem fold_step {conv : Nat → Nat → Prop} (is : List (Nat × Nat)) : ∀ {C : Canvas α}, WF C → is.Nodup →
    (∀ x ∈ is, x.1 < C.next ∧ conv x.1 x.2 ∧ hasSignal (C.into x.1 x.2) = false) → (∀ p j, C.next ≤ p → ¬ conv p j) →
    Step W log v conv C (is.foldl cvt C) ∧ ∀ x ∈ is, hasSignal ((is.foldl cvt C).into x.1 x.2) = true := by
  induction is with
  | nil => intro C hC _ _ _; exact ⟨.refl _ hC C.err, by simp⟩
  | cons x is ih =>
    intro C hC hd hx hn
    rw [List.nodup_cons] at hd
    obtain ⟨h1, h2, h3⟩ := hx x (by simp)
    obtain ⟨s1, s2⟩ := convert_step (W := W) (log := log) (v := v) hC h1 h2 h3
    have hnext : (cvt C x).next = C.next + 1 := rfl
    obtain ⟨s3, s4⟩ := ih (C := cvt C x) s1.wf hd.2 (fun y hy => by
      obtain ⟨g1, g2, g3⟩ := hx y (by simp [hy])
      refine ⟨by omega, g2, ?_⟩
      rw [← g3]
      exact hasSignal_perm (into_convert_other g1 fun e => hd.1 (by rw [show x = y from Prod.ext e.1.symm e.2.symm]; exact hy)))
      fun p j hp => hn p j (by omega)
    rw [List.foldl_cons]
    refine ⟨s1.trans s3 hn, fun y hy => ?_⟩
    rcases List.mem_cons.1 hy with rfl | hy
    · exact s3.sig y.1 (by omega) y.2 s2
    · exact s4 y hy

omit [Field α] [DecidableEq α] in
theorem needs_silent {args : Nat → Bool} {C : Canvas α} {b : Box} {x : Nat × Nat} (h : x ∈ needs args C b) :
    hasSignal (C.into x.1 x.2) = false := by
  cases b with
  | op o =>
    simp only [needs] at h
    rcases List.mem_append.1 h with h | h
    · split at h
      · simp at h
      · next h' => rw [List.mem_singleton.1 h]; simpa using h'
    · split at h
      · next h' => rw [List.mem_singleton.1 h]; exact h'.1
      · simp at h
  | lib o =>
    simp only [needs] at h
    split at h
    · next h' => rw [List.mem_singleton.1 h]; exact h'.1
    · simp at h

theorem all_step {args : Nat → Bool} {bs : List Box} {C : Canvas α} (hC : WF C) (hn : (bs.map Box.id).Nodup) (hb : ∀ b ∈ bs, b.id < C.next) :
    Step W log v (fun p j => (p, j) ∈ given args bs C) C (validateAll args bs C) ∧
      ∀ x ∈ given args bs C, hasSignal ((validateAll args bs C).into x.1 x.2) = true := by
  obtain ⟨e, he⟩ := validateAll_eq (args := args) bs hn hb
  have hlt : ∀ x ∈ given args bs C, x.1 < C.next := fun x hx => by
    obtain ⟨b, h1, h2⟩ := List.mem_flatMap.1 hx
    rw [needs_mem h2]; exact hb b h1
  obtain ⟨h1, h2⟩ := fold_step (W := W) (log := log) (v := v) (conv := fun p j => (p, j) ∈ given args bs C) (given args bs C) hC
    (given_nodup bs hn) (fun x hx => ⟨hlt x hx, hx, by
      obtain ⟨b, -, h2⟩ := List.mem_flatMap.1 hx
      exact needs_silent h2⟩) fun p j hp hx => absurd (hlt _ hx) (not_lt.2 hp)
  have heq : validateAll args bs C = { (given args bs C).foldl cvt C with err := e } := he
  rw [heq]
  exact ⟨h1.trans (.refl _ h1.wf e) fun p j hp hx => absurd (hlt _ hx) (not_lt.2 hp), h2⟩

/-- **C94** what a signal box of the library hears: whatever is cabled to its first inlet, in the graph that pd2hv hands over it gets signals
there, and the signal is at every time the sum of the signals of the canvas, or, if only messages come, the last number received (at first 0) -/
theorem box_hears {args : Nat → Bool} {bs : List Box} {C : Canvas α} (hC : WF C) (hn : (bs.map Box.id).Nodup) (hb : ∀ b ∈ bs, b.id < C.next)
    (h : Solves W (validateAll args bs C).graph log v) {o : Nat} (ho : Box.lib o ∈ bs) (hi : C.into o 0 ≠ []) (t : Nat) :
    hasSignal ((validateAll args bs C).into o 0) = true ∧
      operand W v log 0 ((validateAll args bs C).into o 0) t = operand W v log 0 (C.into o 0) t := by
  obtain ⟨h1, h2⟩ := all_step (W := W) (log := log) (v := v) (args := args) hC hn hb
  have hlt : o < C.next := hb _ ho
  refine ⟨?_, h1.eq (fun p h3 h4 => ?_) o hlt 0 t 0 fun _ => rfl⟩
  · cases hs : hasSignal (C.into o 0) with
    | true => exact h1.sig o hlt 0 hs
    | false =>
      refine h2 (o, 0) (List.mem_flatMap.2 ⟨_, ho, ?_⟩)
      show (o, 0) ∈ if hasSignal (C.into o 0) = false ∧ C.into o 0 ≠ [] then [(o, 0)] else []
      rw [if_pos ⟨hs, hi⟩]
      simp
  · obtain ⟨h5, h6⟩ := h1.new p h3 h4
    have := h p h6
    unfold Obeys at this
    simp only [show (validateAll args bs C).graph.kind p = .var 0 from h5] at this
    exact this

/-- **C94** all other inlets of the canvas keep their cables -/
theorem others_keep {args : Nat → Bool} {bs : List Box} {C : Canvas α} (hC : WF C) (hn : (bs.map Box.id).Nodup) (hb : ∀ b ∈ bs, b.id < C.next)
    {p : Nat} (hp : p < C.next) (ho : p ∉ bs.map Box.id) (j : Nat) :
    ((validateAll args bs C).into p j).Perm (C.into p j) ∧ (validateAll args bs C).kind p = C.kind p := by
  obtain ⟨h1, -⟩ := all_step (W := (⟨fun _ _ _ => 0, fun _ _ => 0, fun _ => none, fun _ _ _ _ _ => 0, fun _ _ => false, 1⟩ : World α Unit))
    (log := fun _ => []) (v := fun _ _ _ => 0) (args := args) hC hn hb
  refine ⟨h1.perm p hp j fun hx => ho ?_, h1.kind p hp⟩
  obtain ⟨b, h2, h3⟩ := List.mem_flatMap.1 hx
  exact List.mem_map.2 ⟨b, h2, (needs_mem h3).symm⟩

/-- **C94** nothing is lost and nothing is added: a message from an outlet gets to the inlets of the canvas, each as often as there are cables -/
theorem same_goals {args : Nat → Bool} {bs : List Box} {C : Canvas α} (hC : WF C) (hn : (bs.map Box.id).Nodup)
    (hb : ∀ b ∈ bs, b.id < C.next) {p : Nat} (hp : p < C.next) (j : Nat) :
    (goals C.next (validateAll args bs C).cs p j).Perm ((C.cs.filter (·.from p j)).map fun c => (c.dst, c.inlet)) := by
  rw [order_after_partial hC hn hb hp j]
  have hd : (given args bs C).Nodup := given_nodup bs hn
  have key : ∀ (is : List (Nat × Nat)) (l : List Conn), is.Nodup →
      ((l.filter fun c => ¬ (c.ty = .c ∧ (c.dst, c.inlet) ∈ is)) ++ is.flatMap fun x => l.filter fun c => c.ty = .c ∧ (c.dst, c.inlet) = x).Perm l := by
    intro is
    induction is with
    | nil => intro l _; simp
    | cons x is ih =>
      intro l hd
      rw [List.nodup_cons] at hd
      rw [List.flatMap_cons]
      refine .trans ?_ (ih l hd.2)
      rw [← List.append_assoc]
      refine .append_right _ ?_
      refine .trans ?_ (List.filter_append_perm (fun c : Conn => decide ¬ (c.ty = .c ∧ (c.dst, c.inlet) = x)) _)
      rw [List.filter_filter, List.filter_filter]
      refine .of_eq ?_
      congr 1 <;>
      · apply List.filter_congr
        intro c _
        by_cases h1 : c.ty = .c <;> by_cases h2 : (c.dst, c.inlet) = x <;> simp [h1, h2, hd.1]
  have := (key _ (C.cs.filter (·.from p j)) hd).map fun c => (c.dst, c.inlet)
  rw [List.map_append, List.map_flatMap] at this
  exact this

/-- **C94** the order is that of the canvas if none of the cables of the outlet leads to an inlet that gets a `sig~` -/
theorem order_stays {args : Nat → Bool} {bs : List Box} {C : Canvas α} (hC : WF C) (hn : (bs.map Box.id).Nodup)
    (hb : ∀ b ∈ bs, b.id < C.next) {p : Nat} (hp : p < C.next) (j : Nat)
    (h : ∀ c ∈ C.cs, c.from p j → c.ty = .c → (c.dst, c.inlet) ∉ given args bs C) :
    goals C.next (validateAll args bs C).cs p j = (C.cs.filter (·.from p j)).map fun c => (c.dst, c.inlet) := by
  rw [order_after_partial hC hn hb hp j]
  have e1 : ((C.cs.filter (·.from p j)).filter fun c => decide (¬ (c.ty = .c ∧ (c.dst, c.inlet) ∈ given args bs C))) = C.cs.filter (·.from p j) := by
    rw [List.filter_eq_self]
    intro c hc
    obtain ⟨h1, h2⟩ := List.mem_filter.1 hc
    exact decide_eq_true fun h3 => h c h1 (of_decide_eq_true h2) h3.1 h3.2
  rw [e1]
  have e2 : ∀ x ∈ given args bs C, (((C.cs.filter (·.from p j)).filter fun c => c.ty = .c ∧ (c.dst, c.inlet) = x).map fun c => (c.dst, c.inlet)) = [] := by
    intro x hx
    rw [List.map_eq_nil_iff, List.filter_eq_nil_iff]
    intro c hc h3
    obtain ⟨h1, h2⟩ := List.mem_filter.1 hc
    have h3 := of_decide_eq_true h3
    exact h c h1 (of_decide_eq_true h2) h3.1 (h3.2 ▸ hx)
  rw [List.flatMap_eq_nil_iff.2 e2, List.append_nil]

/-! ### an example: a number box (0) cabled first to `[mtof~]` (2), then to the message `[0(` (1), that is cabled to `[mtof~]`, too -/
namespace Example

/-- the canvas -/
def patch : Canvas ℚ where
  ids := [0, 1, 2]
  kind _ := .other "object"
  cs := [⟨0, 0, 2, 0, .c⟩, ⟨0, 0, 1, 0, .c⟩, ⟨1, 0, 2, 0, .c⟩]
  next := 3
  err := false

/-- what arrives where, when object `p` sends `x`: each cable in its order, with all that follows from it before the next; the message box answers
with 0 -/
def arrivals (order : Nat → List (Nat × Nat)) : Nat → Nat → Nat → List ((Nat × Nat) × Nat)
  | 0, _, _ => []
  | f + 1, p, x => (order p).flatMap fun t => (t, x) :: if t.1 = 1 then arrivals order f 1 0 else []

/-- the canvas meets the hypotheses, and `[mtof~]` gets its `sig~` -/
theorem meets : WF patch ∧ ([Box.lib 2].map Box.id).Nodup ∧ (∀ b ∈ [Box.lib 2], b.id < patch.next) ∧
    given (fun _ => false) [Box.lib 2] patch = [(2, 0)] := by
  refine ⟨by unfold WF; decide, by decide, by decide, by decide⟩

/-- the cables afterwards -/
theorem cables : (validateAll (fun _ => false) [.lib 2] patch).cs =
    [⟨0, 0, 1, 0, .c⟩, ⟨3, 0, 2, 0, .f⟩, ⟨0, 0, 3, 0, .c⟩, ⟨1, 0, 3, 0, .c⟩] := by
  decide

/-- **C94, negative** on the canvas `[mtof~]` gets first 5, then 0, and keeps 0; in the compiled graph it gets first 0, then 5, and keeps 5 -/
theorem order_changes :
    arrivals (fun p => goals 3 patch.cs p 0) 3 0 5 = [((2, 0), 5), ((1, 0), 5), ((2, 0), 0)] ∧
    arrivals (fun p => goals 3 (validateAll (fun _ => false) [.lib 2] patch).cs p 0) 3 0 5 = [((1, 0), 5), ((2, 0), 0), ((2, 0), 5)] := by
  rw [cables]
  decide

/-- the box adds 100 to its signal -/
def world : World ℚ ℚ := ⟨fun _ _ _ => 0, fun _ _ => 0, some, fun o s _ _ t => if o = 2 then s 0 t + 100 else 0, fun _ _ => false, 1⟩

/-- the message box sends 0 and the number box 5, both at time 5 -/
def sent (t : Nat) : List (Sent ℚ) := if t < 5 then [] else [⟨1, 0, 0⟩, ⟨0, 0, 5⟩]

/-- the signals -/
def sigs (o _j t : Nat) : ℚ := if o = 3 then (if t < 5 then 0 else 5) else if o = 2 then (if t < 5 then 100 else 105) else 0

theorem solves : Solves world (validateAll (fun _ => false) [.lib 2] patch).graph sent sigs := by
  have e2 : (validateAll (fun _ => false) [.lib 2] patch).ids = [0, 1, 2, 3] := by decide
  have e3 : ∀ p, (validateAll (fun _ => false) [.lib 2] patch).kind p = if p = 3 then .var 0 else patch.kind p := fun p => by
    have e : validateAll (fun _ => false) [.lib 2] patch = convert 2 0 (patch.into 2 0) patch := by
      show libBox 2 patch = _
      exact if_pos (by decide)
    rw [e]
    rfl
  have e5 : ∀ d i, (validateAll (fun _ => false) [.lib 2] patch).graph.ins d i =
      [⟨0, 0, 1, 0, .c⟩, ⟨3, 0, 2, 0, .f⟩, ⟨0, 0, 3, 0, .c⟩, ⟨1, 0, 3, 0, .c⟩].filter (·.into d i) := by
    intro d i
    rw [← cables]; rfl
  intro o ho
  have ho : o ∈ [0, 1, 2, 3] := by rw [← e2]; exact ho
  have e4 : (validateAll (fun _ => false) [.lib 2] patch).graph.kind o = if o = 3 then .var 0 else patch.kind o := e3 o
  unfold Obeys
  rw [e4]
  simp only [e5]
  simp only [List.mem_cons, List.not_mem_nil, or_false] at ho
  rcases ho with rfl | rfl | rfl | rfl
  · simp [patch, sigs, world]
  · simp [patch, sigs, world]
  · simp only [patch, Conn.into]
    intro j t
    by_cases h : t < 5 <;> simp [inSum, sigs, world, h] <;> norm_num
  · simp only [if_true, Conn.into]
    intro t
    by_cases h : t < 5 <;> simp [received, sigs, sent, held, world, h]

/-- the example meets the hypotheses of `box_hears`: the box hears 5 in the end -/
theorem hears : operand world sigs sent 0 ((validateAll (fun _ => false) [.lib 2] patch).into 2 0) 7 = 5 := by
  rw [(box_hears meets.1 meets.2.1 meets.2.2.1 solves (o := 2) (by simp) (by decide) 7).2]
  have e : patch.into 2 0 = [⟨0, 0, 2, 0, .c⟩, ⟨1, 0, 2, 0, .c⟩] := by decide
  rw [e]
  simp [operand, hasSignal, received, held, world, sent]

end Example

end Verif.PdBinop
