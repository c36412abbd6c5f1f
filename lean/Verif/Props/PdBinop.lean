import Verif.PdBinop
import Verif.Props.ReduceAll
/-!
# C81 (continued): messages at the inlets of signal operators
-/
namespace Verif.PdBinop
open Verif.Reduce

variable {α μ : Type} [Field α] [DecidableEq α] {W : World α μ} {log : Nat → List (Sent μ)} {v : Nat → Nat → Nat → α}

/-- new objects are new -/
def WF (C : Canvas α) : Prop := ∀ c ∈ C.cs, c.src < C.next ∧ c.dst < C.next

theorem fold_perm (n : Nat) (l : List Conn) : ∀ (cs rest : List Conn), cs.Perm (l ++ rest) →
    (l.foldl (fun cs c => (cs ++ [moved n c]).erase c) cs).Perm (rest ++ l.map (moved n)) := by
  induction l with
  | nil => intro cs rest h; simpa using h
  | cons c l ih =>
    intro cs rest h
    rw [List.foldl_cons]
    have h1 : ((cs ++ [moved n c]).erase c).Perm (l ++ (rest ++ [moved n c])) := by
      have := (h.append_right [moved n c]).erase c
      simpa using this
    simpa using ih _ _ h1

/-- the cables of messages to an inlet -/
def ctl (C : Canvas α) (o i : Nat) : List Conn := C.cs.filter fun c => c.into o i ∧ c.ty = .c

theorem convert_perm (C : Canvas α) (o i : Nat) :
    (convert o i (C.into o i) C).cs.Perm ((C.cs.filter fun c => ¬ (c.into o i ∧ c.ty = .c)) ++ [⟨C.next, 0, o, i, .f⟩] ++ (ctl C o i).map (moved C.next)) := by
  have e : ((C.into o i).filter fun c => c.ty = .c) = ctl C o i := by
    unfold Canvas.into ctl
    rw [List.filter_filter]
    apply List.filter_congr
    intro c _
    simp [and_comm]
  unfold convert
  simp only
  rw [e]
  apply fold_perm
  rw [← List.append_assoc]
  apply List.Perm.append_right
  have := List.filter_append_perm (fun c : Conn => decide (c.into o i ∧ c.ty = .c)) C.cs
  simpa [ctl] using this.symm

theorem into_convert_other {C : Canvas α} {o i p j : Nat} (hp : p < C.next) (h : ¬ (p = o ∧ j = i)) :
    ((convert o i (C.into o i) C).into p j).Perm (C.into p j) := by
  have h1 := (convert_perm C o i).filter (fun c => decide (c.into p j))
  unfold Canvas.into at h1 ⊢
  refine h1.trans ?_
  rw [List.filter_append, List.filter_append, List.filter_filter]
  have e1 : ((ctl C o i).map (moved C.next)).filter (fun c => decide (c.into p j)) = [] := by
    rw [List.filter_eq_nil_iff]
    intro c hc
    obtain ⟨d, -, rfl⟩ := List.mem_map.1 hc
    intro hh
    have hh := of_decide_eq_true hh
    have := hh.1
    simp only [moved] at this
    omega
  have e2 : [(⟨C.next, 0, o, i, .f⟩ : Conn)].filter (fun c => decide (c.into p j)) = [] := by
    rw [List.filter_eq_nil_iff]
    intro c hc
    rw [List.mem_singleton.1 hc]
    intro e
    have e := of_decide_eq_true e
    exact h ⟨e.1.symm, e.2.symm⟩
  rw [e1, e2, List.append_nil, List.append_nil]
  apply List.Perm.of_eq
  apply List.filter_congr
  intro c _
  by_cases hc : c.into p j
  · have : ¬ c.into o i := fun e => h ⟨hc.1.symm.trans e.1, hc.2.symm.trans e.2⟩
    simp [hc, this]
  · simp [hc]

theorem into_convert_here {C : Canvas α} {o i : Nat} (ho : o < C.next) :
    ((convert o i (C.into o i) C).into o i).Perm (((C.into o i).filter fun c => c.ty ≠ .c) ++ [⟨C.next, 0, o, i, .f⟩]) := by
  have h1 := (convert_perm C o i).filter (fun c => decide (c.into o i))
  unfold Canvas.into at h1 ⊢
  refine h1.trans ?_
  rw [List.filter_append, List.filter_append, List.filter_filter]
  have e1 : ((ctl C o i).map (moved C.next)).filter (fun c => decide (c.into o i)) = [] := by
    rw [List.filter_eq_nil_iff]
    intro c hc
    obtain ⟨d, -, rfl⟩ := List.mem_map.1 hc
    intro hh
    have hh := of_decide_eq_true hh
    have := hh.1
    simp only [moved] at this
    omega
  rw [e1, List.append_nil]
  apply List.Perm.of_eq
  congr 1
  · rw [List.filter_filter]
    apply List.filter_congr
    intro c _
    by_cases hc : c.into o i <;> simp [hc]
  · simp [Conn.into]

theorem into_convert_new {C : Canvas α} (hC : WF C) {o i : Nat} (ho : o < C.next) :
    ((convert o i (C.into o i) C).into C.next 0).Perm ((ctl C o i).map (moved C.next)) := by
  have h1 := (convert_perm C o i).filter (fun c => decide (c.into C.next 0))
  unfold Canvas.into at h1 ⊢
  refine h1.trans ?_
  rw [List.filter_append, List.filter_append, List.filter_filter]
  have e0 : (C.cs.filter fun c => decide (c.into C.next 0) && decide ¬ (c.into o i ∧ c.ty = .c)) = [] := by
    rw [List.filter_eq_nil_iff]
    intro c hc h
    have h1 := (hC c hc).2
    rw [Bool.and_eq_true] at h
    have h := (of_decide_eq_true h.1).1
    omega
  have e1 : ((ctl C o i).map (moved C.next)).filter (fun c => decide (c.into C.next 0)) = (ctl C o i).map (moved C.next) := by
    rw [List.filter_eq_self]
    intro c hc
    obtain ⟨d, -, rfl⟩ := List.mem_map.1 hc
    simp [moved, Conn.into]
  rw [e1]
  simp only [Conn.into] at e0 ⊢
  rw [e0]
  simp [ho.ne]

theorem received_ctl (C : Canvas α) (n o i : Nat) (lg : List (Sent μ)) : received lg ((ctl C o i).map (moved n)) = received lg (C.into o i) := by
  unfold received
  refine List.flatMap_congr fun e _ => ?_
  congr 1
  unfold ctl Canvas.into
  rw [List.countP_map, List.countP_filter, List.countP_filter]
  apply List.countP_congr
  intro c _
  simp only [moved, Function.comp]
  by_cases h1 : c.into o i <;> by_cases h2 : c.ty = .c <;> simp [h1, h2]

theorem hasSignal_perm {l l' : List Conn} (h : l'.Perm l) : hasSignal l' = hasSignal l := by
  unfold hasSignal
  rw [Bool.eq_iff_iff]
  simp only [List.any_eq_true]
  exact ⟨fun ⟨c, hc, h1⟩ => ⟨c, h.subset hc, h1⟩, fun ⟨c, hc, h1⟩ => ⟨c, h.symm.subset hc, h1⟩⟩

theorem operand_perm {l l' : List Conn} (h : l'.Perm l) (k : α) (t : Nat) : operand W v log k l' t = operand W v log k l t := by
  unfold operand
  rw [hasSignal_perm h, inSum_perm h, received_perm h]

/-- what a step of the validation does; `conv` are the inlets that it may change -/
structure Step (W : World α μ) (log : Nat → List (Sent μ)) (v : Nat → Nat → Nat → α) (conv : Nat → Nat → Prop) (C C' : Canvas α) : Prop where
  next : C.next ≤ C'.next
  wf : WF C'
  kind : ∀ p < C.next, C'.kind p = C.kind p
  new : ∀ p, C.next ≤ p → p < C'.next → C'.kind p = .var 0 ∧ p ∈ C'.ids
  ids : ∀ p ∈ C.ids, p ∈ C'.ids
  perm : ∀ p < C.next, ∀ j, ¬ conv p j → (C'.into p j).Perm (C.into p j)
  eq : (∀ p, C.next ≤ p → p < C'.next → ∀ t, v p 0 t = held W 0 (received (log t) (C'.into p 0))) →
    ∀ p < C.next, ∀ j t k, (conv p j → k = 0) → operand W v log k (C'.into p j) t = operand W v log k (C.into p j) t
  sig : ∀ p < C.next, ∀ j, hasSignal (C.into p j) = true → hasSignal (C'.into p j) = true

theorem Step.refl (conv : Nat → Nat → Prop) {C : Canvas α} (hC : WF C) (e : Bool) : Step W log v conv C { C with err := e } :=
  ⟨le_rfl, hC, fun _ _ => rfl, fun p h1 h2 => absurd (lt_of_le_of_lt h1 h2) (lt_irrefl _), fun _ h => h, fun _ _ _ _ => .refl _,
    fun _ _ _ _ _ _ _ => rfl, fun _ _ _ h => h⟩

theorem Step.trans {conv : Nat → Nat → Prop} {C C' C'' : Canvas α} (h : Step W log v conv C C') (h' : Step W log v conv C' C'')
    (hn : ∀ p j, C.next ≤ p → ¬ conv p j) : Step W log v conv C C'' where
  next := h.next.trans h'.next
  wf := h'.wf
  kind p hp := (h'.kind p (lt_of_lt_of_le hp h.next)).trans (h.kind p hp)
  new p h1 h2 := by
    by_cases h3 : p < C'.next
    · exact ⟨(h'.kind p h3).trans (h.new p h1 h3).1, h'.ids p (h.new p h1 h3).2⟩
    · exact h'.new p (not_lt.1 h3) h2
  ids p hp := h'.ids p (h.ids p hp)
  perm p hp j hc := (h'.perm p (lt_of_lt_of_le hp h.next) j hc).trans (h.perm p hp j hc)
  eq hv p hp j t k hk := by
    rw [h'.eq (fun q h1 h2 => hv q (h.next.trans h1) h2) p (lt_of_lt_of_le hp h.next) j t k hk]
    refine h.eq (fun q h1 h2 t => ?_) p hp j t k hk
    rw [hv q h1 (lt_of_lt_of_le h2 h'.next) t, received_perm (h'.perm q h2 0 (hn q 0 h1))]
  sig p hp j hs := h'.sig p (lt_of_lt_of_le hp h.next) j (h.sig p hp j hs)

theorem convert_step {conv : Nat → Nat → Prop} {C : Canvas α} (hC : WF C) {o i : Nat} (ho : o < C.next) (hc : conv o i)
    (hs : hasSignal (C.into o i) = false) :
    Step W log v conv C (convert o i (C.into o i) C) ∧ hasSignal ((convert o i (C.into o i) C).into o i) = true := by
  have hsig : hasSignal ((convert o i (C.into o i) C).into o i) = true := by
    rw [hasSignal_perm (into_convert_here ho)]
    simp [hasSignal]
  refine ⟨⟨Nat.le_succ _, ?_, ?_, ?_, ?_, ?_, ?_, ?_⟩, hsig⟩
  · intro c h
    have h1 := (convert_perm C o i).subset h
    have hn : (convert o i (C.into o i) C).next = C.next + 1 := rfl
    rw [hn]
    simp only [List.append_assoc, List.mem_append, List.mem_filter, List.mem_singleton, List.mem_map] at h1
    rcases h1 with ⟨h1, -⟩ | rfl | ⟨d, hd, rfl⟩
    · have := hC c h1; omega
    · simp only; omega
    · have := hC d (List.mem_filter.1 hd).1
      simp only [moved]; omega
  · intro p hp
    show (if p = C.next then _ else _) = _
    rw [if_neg hp.ne]
  · intro p h1 h2
    have hn : (convert o i (C.into o i) C).next = C.next + 1 := rfl
    obtain rfl : p = C.next := by omega
    exact ⟨if_pos rfl, by simp [convert]⟩
  · intro p hp; simp [convert, hp]
  · intro p hp j hn
    exact into_convert_other hp fun e => hn (e.1 ▸ e.2 ▸ hc)
  · intro hv p hp j t k hk
    by_cases h : p = o ∧ j = i
    · obtain ⟨rfl, rfl⟩ := h
      have hv' := hv C.next le_rfl (Nat.lt_succ_self _) t
      rw [received_perm (into_convert_new hC ho), received_ctl] at hv'
      unfold operand
      rw [hsig, hs, inSum_perm (into_convert_here ho), hk hc]
      simp only [if_true, Bool.false_eq_true, if_false]
      rw [← hv']
      unfold inSum
      rw [List.filter_append, List.filter_filter]
      have : ((C.into p j).filter fun c => decide (c.ty = .f) && decide (c.ty ≠ .c)) = [] := by
        rw [List.filter_eq_nil_iff]
        intro c hcc hf
        unfold hasSignal at hs
        rw [List.any_eq_false] at hs
        exact hs c hcc (by simp only [Bool.and_eq_true, decide_eq_true_eq] at hf; simp [hf.1])
      rw [this]
      simp
    · exact operand_perm (into_convert_other hp h) k t
  · intro p hp j h
    by_cases e : p = o ∧ j = i
    · obtain ⟨rfl, rfl⟩ := e; exact hsig
    · rw [hasSignal_perm (into_convert_other hp e)]; exact h

theorem hasSig_eq (l : List Conn) : left.hasSig l = hasSignal l := rfl

/-- the inlets in question: the left one of an operator, and the right one if it has no argument -/
def Conv (args : Nat → Bool) (ops : List Nat) (p j : Nat) : Prop := p ∈ ops ∧ (j = 0 ∨ (j = 1 ∧ args p = false))

theorem one_step {args : Nat → Bool} {ops : List Nat} {C : Canvas α} (hC : WF C) {o : Nat} (ho : o ∈ ops) (hb : ∀ p ∈ ops, p < C.next) :
    Step W log v (Conv args ops) C (right args o (left o C)) ∧ hasSignal ((right args o (left o C)).into o 0) = true := by
  have hn : ∀ p j, C.next ≤ p → ¬ Conv args ops p j := fun p j h hc => absurd (hb p hc.1) (not_lt.2 h)
  have hl : Step W log v (Conv args ops) C (left o C) ∧ hasSignal ((left o C).into o 0) = true := by
    unfold left
    rw [hasSig_eq]
    split
    · next h => exact ⟨.refl _ hC C.err, h⟩
    · next h => exact convert_step hC (hb o ho) ⟨ho, .inl rfl⟩ (by simpa using h)
  have ho' : o < (left o C).next := lt_of_lt_of_le (hb o ho) hl.1.next
  have hr : Step W log v (Conv args ops) (left o C) (right args o (left o C)) := by
    unfold right
    rw [hasSig_eq]
    split
    · exact .refl _ hl.1.wf _
    · next h =>
      split
      · next h2 => exact (convert_step hl.1.wf ho' ⟨ho, .inr ⟨rfl, h2.1⟩⟩ (by simpa using h)).1
      · exact .refl _ hl.1.wf (left o C).err
  exact ⟨hl.1.trans hr hn, hr.sig o ho' 0 hl.2⟩

theorem validate_step {args : Nat → Bool} {ops : List Nat} (l : List Nat) (hl : ∀ o ∈ l, o ∈ ops) : ∀ {C : Canvas α}, WF C →
    (∀ p ∈ ops, p < C.next) → Step W log v (Conv args ops) C (validate args l C) ∧ ∀ o ∈ l, hasSignal ((validate args l C).into o 0) = true := by
  induction l with
  | nil => exact fun {C} hC _ => ⟨.refl _ hC C.err, by simp⟩
  | cons o l ih =>
    intro C hC hb
    obtain ⟨h1, h2⟩ := one_step (W := W) (log := log) (v := v) (args := args) hC (hl o (by simp)) hb
    have hb' : ∀ p ∈ ops, p < (right args o (left o C)).next := fun p hp => lt_of_lt_of_le (hb p hp) h1.next
    obtain ⟨h3, h4⟩ := ih (fun p hp => hl p (by simp [hp])) h1.wf hb'
    refine ⟨h1.trans h3 fun p j h hc => absurd (hb p hc.1) (not_lt.2 h), ?_⟩
    intro p hp
    rcases List.mem_cons.1 hp with rfl | hp
    · exact h3.sig p (hb' p (hl p (by simp))) 0 h2
    · exact h4 p hp

/-- **C81** Pd's signal operators: in the graph that pd2hv hands over, every operator computes from what its inlets get on the canvas: the sum of
the signals, or without signals the last number received, at first 0 at the left inlet and the argument (0 without one) at the right -/
theorem operator_hears {args : Nat → Bool} {ops : List Nat} {C : Canvas α} (hC : WF C) (hb : ∀ p ∈ ops, p < C.next ∧ p ∈ C.ids)
    (h : Solves W (validate args ops C).graph log v) {o : Nat} (ho : o ∈ ops) {op : String} {k : α} (hk : C.kind o = .binop op k)
    (ha : args o = false → k = 0) (t : Nat) :
    v o 0 t = W.op op (operand W v log 0 (C.into o 0) t) (operand W v log k (C.into o 1) t) := by
  obtain ⟨h1, h2⟩ := validate_step (W := W) (log := log) (v := v) (args := args) ops (fun _ h => h) hC fun p hp => (hb p hp).1
  have hh := h o (h1.ids o (hb o ho).2)
  have hk' : (validate args ops C).graph.kind o = .binop op k := (h1.kind o (hb o ho).1).trans hk
  unfold Obeys at hh
  simp only [hk'] at hh
  have hh := hh (.inl (h2 o ho)) t
  rw [hh]
  have hv : ∀ p, C.next ≤ p → p < (validate args ops C).next → ∀ t, v p 0 t = held W 0 (received (log t) ((validate args ops C).into p 0)) := by
    intro p h3 h4
    obtain ⟨h5, h6⟩ := h1.new p h3 h4
    have := h p h6
    unfold Obeys at this
    simp only [show (validate args ops C).graph.kind p = .var 0 from h5] at this
    exact this
  have e0 := h1.eq hv o (hb o ho).1 0 t 0 fun _ => rfl
  have e1 := h1.eq hv o (hb o ho).1 1 t k fun hc => ha (hc.2.resolve_left (by simp)).2
  rw [← e0, ← e1]
  rfl

/-- **C81** and the cables to all other objects stay -/
theorem others_stay {args : Nat → Bool} {ops : List Nat} {C : Canvas α} (hC : WF C) (hb : ∀ p ∈ ops, p < C.next) {p : Nat} (hp : p < C.next)
    (ho : p ∉ ops) (j : Nat) : ((validate args ops C).into p j).Perm (C.into p j) ∧ (validate args ops C).kind p = C.kind p := by
  obtain ⟨h1, -⟩ := validate_step (W := (⟨fun _ _ _ => 0, fun _ _ => 0, fun _ => none, fun _ _ _ _ _ => 0, fun _ _ => false, 1⟩ : World α Unit))
    (log := fun _ => []) (v := fun _ _ _ => 0) (args := args) ops (fun _ h => h) hC hb
  exact ⟨h1.perm p hp j fun hc => ho hc.1, h1.kind p hp⟩

/-! ### an example: a signal at the left inlet of `*~`, numbers at the right inlet -/

/-- an oscillator 0, a number box 1 and `*~` 2, without argument -/
def gain : Canvas ℚ where
  ids := [0, 1, 2]
  kind p := if p = 2 then .binop "*" 0 else .other "object"
  cs := [⟨0, 0, 2, 0, .f⟩, ⟨1, 0, 2, 1, .c⟩]
  next := 3
  err := false

/-- the oscillator gives the time, the number box sends 7 at time 5 -/
def gainWorld : World ℚ ℚ := ⟨fun _ _ _ => 0, fun _ _ => 0, some, fun o _ _ _ t => if o = 0 then t else 0, fun _ _ => false, 1⟩

/-- the messages up to a time -/
def gainLog (t : Nat) : List (Sent ℚ) := if t < 5 then [] else [⟨1, 0, 7⟩]

/-- the signals -/
def gainV (o j t : Nat) : ℚ := if o = 0 then t else if o = 1 then 0 else if o = 3 then (if t < 5 then 0 else 7) else if t < 5 then 0 else t * 7

theorem gain_solves : Solves gainWorld (validate (fun _ => false) [2] gain).graph gainLog gainV := by
  have e1 : (validate (fun _ => false) [2] gain).cs = [⟨0, 0, 2, 0, .f⟩, ⟨3, 0, 2, 1, .f⟩, ⟨1, 0, 3, 0, .c⟩] := by decide
  have e2 : (validate (fun _ => false) [2] gain).ids = [0, 1, 2, 3] := by decide
  have e3 : ∀ p, (validate (fun _ => false) [2] gain).kind p = if p = 3 then .var 0 else gain.kind p := fun p => by
    have e : validate (fun _ => false) [2] gain = convert 2 1 (gain.into 2 1) gain := by
      unfold validate
      simp only [List.foldl_cons, List.foldl_nil]
      rw [show left 2 gain = gain from if_pos (by decide)]
      unfold right
      rw [if_neg (by decide), if_pos (by decide)]
    rw [e]
    rfl
  intro o ho
  have ho : o ∈ [0, 1, 2, 3] := by rw [← e2]; exact ho
  unfold Obeys
  have e4 : (validate (fun _ => false) [2] gain).graph.kind o = if o = 3 then .var 0 else gain.kind o := e3 o
  have e5 : ∀ d i, (validate (fun _ => false) [2] gain).graph.ins d i = [⟨0, 0, 2, 0, .f⟩, ⟨3, 0, 2, 1, .f⟩, ⟨1, 0, 3, 0, .c⟩].filter (·.into d i) := by
    intro d i; rw [← e1]; rfl
  rw [e4]
  simp only [e5]
  simp only [List.mem_cons, List.not_mem_nil, or_false] at ho
  rcases ho with rfl | rfl | rfl | rfl
  · simp [gain, gainV, gainWorld]
  · simp [gain, gainV, gainWorld]
  · simp only [gain, Conn.into]
    intro _ t
    by_cases h : t < 5 <;> simp [operand, hasSignal, inSum, gainV, World.op, h]
  · simp only [if_true, Conn.into]
    intro t
    by_cases h : t < 5 <;> simp [received, gainV, gainLog, held, gainWorld, h]

/-- the example meets the hypotheses, and `*~` multiplies by the last number -/
theorem gain_hears (t : Nat) : gainV 2 0 t = gainWorld.op "*" (operand gainWorld gainV gainLog 0 (gain.into 2 0) t)
    (operand gainWorld gainV gainLog 0 (gain.into 2 1) t) :=
  operator_hears (C := gain) (args := fun _ => false) (ops := [2]) (by unfold WF; decide) (by decide) gain_solves (by simp) rfl (fun _ => rfl) t

end Verif.PdBinop
