import Verif.Params
import Mathlib.Data.List.Nodup
import Mathlib.Data.List.Dedup
import Mathlib.Data.List.Induction
import Mathlib.Data.Finset.Basic
import Mathlib.Tactic.NormNum

/-!
# C73: parameters

Every `[r name @hv_param ...]` of a patch is exactly one parameter of the plugin, with its range and its default value; what the host sets is
what it reads back and what the patch gets, also after a change of the sample rate; what the patch sends to `[s name @hv_param]` is what
the host reads.
-/
namespace Verif.Params

/-! ## Specification -/

namespace Spec

/-- the value of parameter `i` that the host has set last, if any -/
def lastSet (i : ℕ) (d : ℚ) (l : List Call) : ℚ :=
  l.foldl (fun a c => match c with | .set j v => if j = i then v else a | _ => a) d

/-- the number that the patch has sent last to the name with the hash `h`, if any -/
def lastOut (h : ℕ) (d : ℚ) (l : List Call) : ℚ :=
  l.foldl (fun a c => match c with | .out g v => if g = h then v else a | _ => a) d

/-- the number of the last message to a receiver -/
def lastSent (h : ℕ) (l : List (ℕ × ℚ)) : Option ℚ := (l.reverse.find? fun x => x.1 = h).map (·.2)

/-- nothing that C++ would not compile, and no two names with one hash -/
structure Fine (E : Externs) (upper : String → String) : Prop where
  keys : (E.ins.map fun x => upper x.1).Nodup
  enums : E.enum.Nodup
  ins : (E.ins.map (·.2.hash)).Nodup
  outs : (E.outs.map (·.2.hash)).Nodup

end Spec
open Spec

variable {E : Externs} {upper : String → String}

/-! ## the plugin -/

theorem inHash_eq (h : Fine E upper) {i : ℕ} {x : String × Param} (hx : E.ins[i]? = some x) : E.inHash upper x.1 = x.2.hash := by
  unfold Externs.inHash Externs.inEnum
  have hm : x ∈ E.ins := List.mem_of_getElem? hx
  have hk := h.keys
  generalize E.ins = l at hm hk
  induction l with
  | nil => cases hm
  | cons y l ih =>
    rw [List.map_cons, List.find?_cons]
    rw [List.map_cons, List.nodup_cons] at hk
    rcases List.mem_cons.1 hm with rfl | hm
    · simp
    · have : upper y.1 ≠ upper x.1 := fun e => hk.1 (e ▸ List.mem_map_of_mem hm)
      simp only [this, decide_false]
      exact ih hm hk.2

theorem index_eq (h : Fine E upper) {i : ℕ} {x : String × Param} (hx : (E.ins ++ E.outs)[i]? = some x) : E.index x.2 = i := by
  unfold Externs.index
  have hi : i < E.enum.length := by
    unfold Externs.enum
    rw [List.length_map]
    exact (List.getElem?_eq_some_iff.1 hx).1
  have : E.enum[i] = "param" ++ x.2.display := by
    apply List.getElem_eq_iff hi |>.2
    unfold Externs.enum
    rw [List.getElem?_map, hx]; rfl
  rw [← this]
  exact h.enums.idxOf_getElem i hi

/-- **C73** the host is told the name and the range of the parameter it asks for -/
theorem init_eq (h : Fine E upper) (i : ℕ) : E.init i = (E.ins ++ E.outs)[i]?.map (·.2) := by
  unfold Externs.init
  cases hx : (E.ins ++ E.outs)[i]? with
  | none =>
    have : ((E.ins ++ E.outs).find? fun x => decide (E.index x.2 = i)) = none := by
      rw [List.find?_eq_none]
      intro x hm
      obtain ⟨j, hj⟩ := List.mem_iff_getElem?.1 hm
      rw [index_eq h hj]
      simp only [decide_eq_true_eq]
      rintro rfl
      rw [hx] at hj
      cases hj
    rw [this, Option.map_none]
  | some x =>
    cases hf : (E.ins ++ E.outs).find? fun x => decide (E.index x.2 = i) with
    | none => exact absurd (List.find?_eq_none.1 hf x (List.mem_of_getElem? hx)) (by simp [index_eq h hx])
    | some y =>
      have h1 := List.find?_some hf
      obtain ⟨j, hj⟩ := List.mem_iff_getElem?.1 (List.mem_of_find?_eq_some hf)
      rw [index_eq h hj] at h1
      simp only [decide_eq_true_eq] at h1
      subst h1
      rw [hx] at hj
      cases hj
      rfl

/-- what the plugin keeps after a history -/
structure Keeps (E : Externs) (l : List Call) (P : Plugin) : Prop where
  len : P.values.length = E.ins.length + E.outs.length
  val_in : ∀ i x, E.ins[i]? = some x → P.values[i]? = some (lastSet i x.2.attr.dflt l)
  val_out : ∀ j x, E.outs[j]? = some x → P.values[E.ins.length + j]? = some (lastOut x.2.hash x.2.attr.dflt l)
  sent : ∀ i x, E.ins[i]? = some x → lastSent x.2.hash P.sent = some (lastSet i x.2.attr.dflt l)

theorem lastSent_snoc (h g : ℕ) (v : ℚ) (l : List (ℕ × ℚ)) : lastSent h (l ++ [(g, v)]) = if g = h then some v else lastSent h l := by
  unfold lastSent
  rw [List.reverse_append, List.reverse_singleton, List.singleton_append, List.find?_cons]
  by_cases e : g = h <;> simp [e]

theorem hash_inj (h : Fine E upper) {i j : ℕ} {x y : String × Param} (hx : E.ins[i]? = some x) (hy : E.ins[j]? = some y)
    (e : x.2.hash = y.2.hash) : i = j := by
  have hi := (List.getElem?_eq_some_iff.1 hx)
  have hj := (List.getElem?_eq_some_iff.1 hy)
  refine (h.ins.getElem_inj_iff (hi := by rw [List.length_map]; exact hi.1) (hj := by rw [List.length_map]; exact hj.1)).1 ?_
  rw [List.getElem_map, List.getElem_map, hi.2, hj.2, e]

/-- one turn of the loop sends the value again -/
theorem set_same (h : Fine E upper) (P : Plugin) (i : ℕ) :
    (E.set upper i (P.values.getD i 0) P).values = P.values ∧
    (E.set upper i (P.values.getD i 0) P).sent = P.sent ++ match E.ins[i]? with | some x => [(x.2.hash, P.values.getD i 0)] | none => [] := by
  unfold Externs.set
  cases hx : E.ins[i]? with
  | none => simp
  | some x =>
    refine ⟨?_, by simp [inHash_eq h hx]⟩
    simp only
    apply List.ext_getElem?
    intro j
    rw [List.getElem?_set]
    by_cases e : i = j
    · subst e
      by_cases hl : i < P.values.length
      · simp [hl]
      · simp [hl]
    · simp [e]

theorem loop (h : Fine E upper) (P : Plugin) (n : ℕ) :
    let Q := (List.range n).foldl (fun Q i => E.set upper i (Q.values.getD i 0) Q) P
    Q.values = P.values ∧ ∀ i x, E.ins[i]? = some x →
      lastSent x.2.hash Q.sent = if i < n then some (P.values.getD i 0) else lastSent x.2.hash P.sent := by
  induction n with
  | zero => simp
  | succ n ih =>
    rw [List.range_succ, List.foldl_append]
    simp only [List.foldl_cons, List.foldl_nil]
    obtain ⟨h1, h2⟩ := ih
    obtain ⟨s1, s2⟩ := set_same h ((List.range n).foldl (fun Q i => E.set upper i (Q.values.getD i 0) Q) P) n
    refine ⟨s1.trans h1, fun i x hx => ?_⟩
    rw [s2]
    cases hy : E.ins[n]? with
    | none =>
      rw [List.append_nil, h2 i x hx]
      have : i < n := by
        have := (List.getElem?_eq_some_iff.1 hx).1
        have := List.getElem?_eq_none_iff.1 hy
        omega
      simp [this, Nat.lt_succ_of_lt this]
    | some y =>
      simp only
      rw [lastSent_snoc, h1, h2 i x hx]
      by_cases e : y.2.hash = x.2.hash
      · have := hash_inj h hy hx e
        subst this
        simp [e]
      · have : i ≠ n := by
          rintro rfl
          rw [hx] at hy
          cases hy
          exact e rfl
        rw [if_neg e]
        by_cases hl : i < n
        · simp [hl, Nat.lt_succ_of_lt hl]
        · have : ¬ i < n + 1 := by omega
          simp [hl, this]

theorem resend_values (h : Fine E upper) (P : Plugin) : (E.resend upper P).values = P.values := by
  unfold Externs.resend
  split
  · exact (loop h P _).1
  · rfl

theorem resend_sent (h : Fine E upper) (P : Plugin) {i : ℕ} {x : String × Param} (hx : E.ins[i]? = some x) :
    lastSent x.2.hash (E.resend upper P).sent = some (P.values.getD i 0) := by
  have hi := (List.getElem?_eq_some_iff.1 hx).1
  unfold Externs.resend
  rw [if_pos (by omega)]
  rw [(loop h P _).2 i x hx, if_pos (by omega)]

theorem getD_of_some {l : List ℚ} {i : ℕ} {v : ℚ} (h : l[i]? = some v) : l.getD i 0 = v := by
  rw [List.getD_eq_getElem?_getD, h]; rfl

theorem keeps_new (h : Fine E upper) : Keeps E [] (E.new upper) := by
  have hv : (E.new upper).values = (E.ins ++ E.outs).map (·.2.attr.dflt) := resend_values h _
  have hin : ∀ (i : ℕ) (x : String × Param), E.ins[i]? = some x → ((E.ins ++ E.outs).map (·.2.attr.dflt))[i]? = some x.2.attr.dflt := by
    intro i x hx
    rw [List.getElem?_map, List.getElem?_append_left (List.getElem?_eq_some_iff.1 hx).1, hx]; rfl
  refine ⟨by rw [hv]; simp, fun i x hx => by rw [hv]; exact hin i x hx, fun j x hx => ?_, fun i x hx => ?_⟩
  · rw [hv, List.getElem?_map, List.getElem?_append_right (Nat.le_add_right _ _), Nat.add_sub_cancel_left, hx]; rfl
  · refine (resend_sent h _ hx).trans ?_
    rw [getD_of_some (hin i x hx)]; rfl

theorem lastSet_snoc (i : ℕ) (d : ℚ) (l : List Call) (c : Call) : lastSet i d (l ++ [c]) =
    match c with | .set j v => if j = i then v else lastSet i d l | _ => lastSet i d l := by
  unfold lastSet
  rw [List.foldl_append]
  cases c <;> rfl

theorem lastOut_snoc (h : ℕ) (d : ℚ) (l : List Call) (c : Call) : lastOut h d (l ++ [c]) =
    match c with | .out g v => if g = h then v else lastOut h d l | _ => lastOut h d l := by
  unfold lastOut
  rw [List.foldl_append]
  cases c <;> rfl

theorem keeps_step (h : Fine E upper) {l : List Call} {P : Plugin} (k : Keeps E l P) (c : Call) : Keeps E (l ++ [c]) (E.step upper P c) := by
  cases c with
  | set i v =>
    simp only [Externs.step, Externs.set]
    cases hx : E.ins[i]? with
    | none =>
      refine ⟨k.len, fun j y hy => ?_, fun j y hy => ?_, fun j y hy => ?_⟩
      · have : i ≠ j := by rintro rfl; rw [hx] at hy; cases hy
        rw [k.val_in j y hy, lastSet_snoc]; simp [this]
      · rw [k.val_out j y hy, lastOut_snoc]
      · have : i ≠ j := by rintro rfl; rw [hx] at hy; cases hy
        rw [k.sent j y hy, lastSet_snoc]; simp [this]
    | some x =>
      have hi := (List.getElem?_eq_some_iff.1 hx).1
      refine ⟨by simp [k.len], fun j y hy => ?_, fun j y hy => ?_, fun j y hy => ?_⟩
      · rw [List.getElem?_set, lastSet_snoc]
        by_cases e : i = j
        · have : i < P.values.length := by rw [k.len]; omega
          simp [e] at this ⊢
          exact this
        · simp [e, k.val_in j y hy]
      · rw [List.getElem?_set, if_neg (by omega), k.val_out j y hy, lastOut_snoc]
      · simp only
        rw [lastSent_snoc, inHash_eq h hx, lastSet_snoc, k.sent j y hy]
        by_cases e : i = j
        · subst e
          rw [hx] at hy
          cases hy
          simp
        · have : x.2.hash ≠ y.2.hash := fun e' => e (hash_inj h hx hy e')
          simp [e, this]
  | rate =>
    simp only [Externs.step, Externs.rateChanged]
    refine ⟨by rw [resend_values h]; exact k.len, fun j y hy => ?_, fun j y hy => ?_, fun j y hy => ?_⟩
    · rw [resend_values h, lastSet_snoc]; exact k.val_in j y hy
    · rw [resend_values h, lastOut_snoc]; exact k.val_out j y hy
    · rw [resend_sent h _ hy, lastSet_snoc, getD_of_some (k.val_in j y hy)]
  | out g v =>
    simp only [Externs.step, Externs.output]
    cases hf : E.outs.find? fun x => decide (x.2.hash = g) with
    | none =>
      refine ⟨k.len, fun j y hy => ?_, fun j y hy => ?_, fun j y hy => ?_⟩
      · rw [k.val_in j y hy, lastSet_snoc]
      · have : g ≠ y.2.hash := fun e => by
          have := List.find?_eq_none.1 hf y (List.mem_of_getElem? hy)
          simp [e] at this
        rw [k.val_out j y hy, lastOut_snoc]; simp [this]
      · rw [k.sent j y hy, lastSet_snoc]
    | some x =>
      have hg : x.2.hash = g := by have := List.find?_some hf; simpa using this
      obtain ⟨n, hn⟩ := List.mem_iff_getElem?.1 (List.mem_of_find?_eq_some hf)
      have hidx : E.index x.2 = E.ins.length + n := by
        refine index_eq h ?_
        rw [List.getElem?_append_right (Nat.le_add_right _ _), Nat.add_sub_cancel_left, hn]
      have hnl := (List.getElem?_eq_some_iff.1 hn).1
      refine ⟨by simp [k.len], fun j y hy => ?_, fun j y hy => ?_, fun j y hy => ?_⟩
      · have := (List.getElem?_eq_some_iff.1 hy).1
        rw [List.getElem?_set, if_neg (by omega), k.val_in j y hy, lastSet_snoc]
      · rw [List.getElem?_set, lastOut_snoc, hidx]
        by_cases e : n = j
        · subst e
          rw [hn] at hy
          cases hy
          have : E.ins.length + n < P.values.length := by rw [k.len]; omega
          simp [hg, this]
        · have hne : g ≠ y.2.hash := by
            intro e'
            apply e
            have hj := (List.getElem?_eq_some_iff.1 hy)
            refine (h.outs.getElem_inj_iff (hi := by rw [List.length_map]; exact hnl) (hj := by rw [List.length_map]; exact hj.1)).1 ?_
            rw [List.getElem_map, List.getElem_map, hj.2, (List.getElem?_eq_some_iff.1 hn).2, hg, e']
          rw [if_neg (by omega), k.val_out j y hy]
          simp [hne]
      · rw [k.sent j y hy, lastSet_snoc]

theorem keeps_run (h : Fine E upper) (l : List Call) : Keeps E l (E.run upper l) := by
  induction l using List.reverseRecOn with
  | nil => exact keeps_new h
  | append_singleton l c ih =>
    have : E.run upper (l ++ [c]) = E.step upper (E.run upper l) c := by
      unfold Externs.run
      rw [List.foldl_append]; rfl
    rw [this]
    exact keeps_step h ih c

/-- **C73, input**: after every history the host reads what it has set last (or the default value), and that is also what the patch (its
current context) has got last, even if the sample rate was changed afterwards -/
theorem input_parameter (h : Fine E upper) (l : List Call) {i : ℕ} {k : String} {p : Param} (hp : E.ins[i]? = some (k, p)) :
    getValue i (E.run upper l) = some (lastSet i p.attr.dflt l) ∧ lastSent p.hash (E.run upper l).sent = some (lastSet i p.attr.dflt l) :=
  ⟨(keeps_run h l).val_in i _ hp, (keeps_run h l).sent i _ hp⟩

/-- **C73, output**: after every history the host reads the number that the patch has sent last (or the default value) -/
theorem output_parameter (h : Fine E upper) (l : List Call) {j : ℕ} {k : String} {p : Param} (hp : E.outs[j]? = some (k, p)) :
    getValue (E.ins.length + j) (E.run upper l) = some (lastOut p.hash p.attr.dflt l) :=
  (keeps_run h l).val_out j _ hp

/-- **C73** setting a parameter sends one message, to the receiver of that parameter and no other; setting an output (or a parameter that
does not exist) does nothing -/
theorem set_sends (h : Fine E upper) (P : Plugin) (i : ℕ) (v : ℚ) :
    (E.step upper P (.set i v)).sent = P.sent ++ match E.ins[i]? with | some x => [(x.2.hash, v)] | none => [] := by
  simp only [Externs.step, Externs.set]
  cases hx : E.ins[i]? with
  | none => simp
  | some x => simp [inHash_eq h hx]

/-! ## from the patch to the lists of parameters -/

section lists
variable {α β : Type}

theorem mapM_forall₂ (f : α → Option β) : ∀ {l : List α} {l' : List β}, l.mapM f = some l' → List.Forall₂ (fun a b => f a = some b) l l'
  | [], l', h => by
    simp only [List.mapM_nil] at h
    cases h
    exact .nil
  | a :: l, l', h => by
    rw [List.mapM_cons] at h
    cases ha : f a with
    | none => simp [ha] at h
    | some b =>
      cases hl : l.mapM f with
      | none => simp [ha, hl] at h
      | some bs =>
        simp [ha, hl] at h
        subst h
        exact .cons ha (mapM_forall₂ f hl)

theorem forall₂_mem {R : α → β → Prop} {l : List α} {l' : List β} (h : List.Forall₂ R l l') :
    (∀ a ∈ l, ∃ b ∈ l', R a b) ∧ ∀ b ∈ l', ∃ a ∈ l, R a b := by
  induction h with
  | nil => simp
  | cons h _ ih =>
    constructor
    · intro a ha
      rcases List.mem_cons.1 ha with rfl | ha
      · exact ⟨_, List.mem_cons_self, h⟩
      · obtain ⟨b, hb, hr⟩ := ih.1 a ha
        exact ⟨b, List.mem_cons_of_mem _ hb, hr⟩
    · intro b hb
      rcases List.mem_cons.1 hb with rfl | hb
      · exact ⟨_, List.mem_cons_self, h⟩
      · obtain ⟨a, ha, hr⟩ := ih.2 b hb
        exact ⟨a, List.mem_cons_of_mem _ ha, hr⟩

theorem put_keys (k : String) (v : α) (d : List (String × α)) : ∀ x, x ∈ (put k v d).map (·.1) ↔ x = k ∨ x ∈ d.map (·.1) := by
  induction d with
  | nil => intro x; simp [put]
  | cons y d ih =>
    intro x
    obtain ⟨k', v'⟩ := y
    unfold put
    by_cases e : k' = k
    · subst e; simp
    · simp only [e, if_false, List.map_cons, List.mem_cons, ih]
      tauto

theorem put_nodup (k : String) (v : α) (d : List (String × α)) (h : (d.map (·.1)).Nodup) : ((put k v d).map (·.1)).Nodup := by
  induction d with
  | nil => simp [put]
  | cons y d ih =>
    obtain ⟨k', v'⟩ := y
    unfold put
    rw [List.map_cons, List.nodup_cons] at h
    by_cases e : k' = k
    · subst e
      rw [if_pos rfl, List.map_cons, List.nodup_cons]; exact h
    · rw [if_neg e, List.map_cons, List.nodup_cons, put_keys]
      exact ⟨by rintro (rfl | h') <;> [exact e rfl; exact h.1 h'], ih h.2⟩

theorem put_mem (k : String) (v : α) (d : List (String × α)) (h : (d.map (·.1)).Nodup) (x : String × α) :
    x ∈ put k v d ↔ (x = (k, v)) ∨ (x ∈ d ∧ x.1 ≠ k) := by
  induction d with
  | nil => simp [put]
  | cons y d ih =>
    obtain ⟨k', v'⟩ := y
    unfold put
    rw [List.map_cons, List.nodup_cons] at h
    by_cases e : k' = k
    · subst e
      simp only [if_true, List.mem_cons]
      constructor
      · rintro (rfl | hx)
        · exact .inl rfl
        · exact .inr ⟨.inr hx, fun e => h.1 (List.mem_map.2 ⟨x, hx, e⟩)⟩
      · rintro (rfl | ⟨rfl | hx, hk⟩)
        · exact .inl rfl
        · exact absurd rfl hk
        · exact .inr hx
    · simp only [e, if_false, List.mem_cons, ih h.2]
      constructor
      · rintro (rfl | rfl | ⟨h1, h2⟩)
        · exact .inr ⟨.inl rfl, e⟩
        · exact .inl rfl
        · exact .inr ⟨.inr h1, h2⟩
      · rintro (rfl | ⟨rfl | h1, h2⟩)
        · exact .inr (.inl rfl)
        · exact .inl rfl
        · exact .inr (.inr ⟨h1, h2⟩)

theorem dictOf_snoc (l : List (String × α)) (x : String × α) : dictOf (l ++ [x]) = put x.1 x.2 (dictOf l) := by
  unfold dictOf; rw [List.foldl_append]; rfl

theorem dictOf_nodup (l : List (String × α)) : ((dictOf l).map (·.1)).Nodup := by
  induction l using List.reverseRecOn with
  | nil => exact List.nodup_nil
  | append_singleton l x ih => rw [dictOf_snoc]; exact put_nodup _ _ _ ih

/-- a dictionary holds the last value of every key -/
theorem dictOf_mem (l : List (String × α)) (k : String) (v : α) :
    (k, v) ∈ dictOf l ↔ ∃ l₁ l₂, l = l₁ ++ (k, v) :: l₂ ∧ ∀ y ∈ l₂, y.1 ≠ k := by
  induction l using List.reverseRecOn with
  | nil => simp [dictOf]
  | append_singleton l x ih =>
    rw [dictOf_snoc, put_mem _ _ _ (dictOf_nodup l)]
    constructor
    · rintro (h | ⟨h, hk⟩)
      · cases x
        cases h
        exact ⟨l, [], rfl, by simp⟩
      · obtain ⟨l₁, l₂, rfl, h2⟩ := ih.1 h
        refine ⟨l₁, l₂ ++ [x], by simp, fun y hy => ?_⟩
        rcases List.mem_append.1 hy with hy | hy
        · exact h2 y hy
        · rw [List.mem_singleton.1 hy]; exact fun e => hk e.symm
    · rintro ⟨l₁, l₂, he, h2⟩
      rcases List.eq_nil_or_concat l₂ with rfl | ⟨l₃, z, rfl⟩
      · obtain ⟨-, e⟩ := List.append_inj' he rfl
        cases e
        exact .inl rfl
      · rw [List.concat_eq_append] at he h2
        have he' : l ++ [x] = (l₁ ++ (k, v) :: l₃) ++ [z] := by rw [he]; simp
        obtain ⟨e1, e2⟩ := List.append_inj' he' rfl
        cases e2
        exact .inr ⟨ih.2 ⟨l₁, l₃, e1, fun y hy => h2 y (by simp [hy])⟩, fun e => h2 x (by simp) e.symm⟩

theorem dictOf_mem_of_nodup (l : List (String × α)) (h : (l.map (·.1)).Nodup) (x : String × α) : x ∈ dictOf l ↔ x ∈ l := by
  obtain ⟨k, v⟩ := x
  rw [dictOf_mem]
  constructor
  · rintro ⟨l₁, l₂, rfl, -⟩; simp
  · intro hx
    obtain ⟨l₁, l₂, rfl⟩ := List.append_of_mem hx
    refine ⟨l₁, l₂, rfl, fun y hy e => ?_⟩
    rw [List.map_append, List.map_cons, List.nodup_append] at h
    exact (List.nodup_cons.1 h.2.1).1 (List.mem_map.2 ⟨y, hy, e⟩)

theorem sortKeys_perm (l : List (String × α)) : (sortKeys l).Perm l := List.perm_insertionSort ..

theorem noConflicts_iff (upper : String → String) (l : List (String × α)) :
    noConflicts upper l = true ↔ (l.map fun x => upper x.1).Nodup := by
  induction l with
  | nil => simp [noConflicts]
  | cons x l ih =>
    rw [noConflicts, Bool.and_eq_true, ih, List.map_cons, List.nodup_cons, List.all_eq_true]
    refine and_congr ?_ Iff.rfl
    simp only [decide_eq_true_eq, List.mem_map, not_exists, not_and, ne_eq]
    exact ⟨fun h y hy e => h y hy e.symm, fun h y hy e => h y hy e.symm⟩

end lists

/-- the objects of a patch: all that is exported has its own range -/
structure Read (rd : String → Option ℚ) (l : List (String × List String)) (os : List Obj) : Prop where
  all : ∀ x ∈ l, ∃ o ∈ os, pdObj rd x.1 x.2 = some o
  only : ∀ o ∈ os, ∃ x ∈ l, pdObj rd x.1 x.2 = some o

theorem read_of {rd : String → Option ℚ} {l : List (String × List String)} {os : List Obj}
    (h : l.mapM (fun x => pdObj rd x.1 x.2) = some os) : Read rd l os :=
  ⟨(forall₂_mem (mapM_forall₂ _ h)).1, (forall₂_mem (mapM_forall₂ _ h)).2⟩

theorem pdObj_name {rd : String → Option ℚ} {n : String} {args : List String} {o : Obj} (h : pdObj rd n args = some o) : o.name = n := by
  unfold pdObj at h
  split at h
  · simp only at h
    split at h
    · cases h; rfl
    · cases h
  · cases h; rfl
  · cases h; rfl

/-- only what is written with `@hv_param` is a parameter; its default value is in its range -/
theorem pdObj_param {rd : String → Option ℚ} {n : String} {args : List String} {o : Obj} (h : pdObj rd n args = some o) :
    (o.ext = some .param ↔ ∃ as, args = "@hv_param" :: as) ∧
    (∀ a, o.attr = some a → ∃ as, args = "@hv_param" :: as ∧ a = readAttr rd as ∧ a.min ≤ a.dflt ∧ a.dflt ≤ a.max) ∧
    (∀ as, args = "@hv_param" :: as → o.attr = some (readAttr rd as)) := by
  unfold pdObj at h
  split at h
  · simp only at h
    split at h
    · rename_i hr
      cases h
      refine ⟨⟨fun _ => ⟨_, rfl⟩, fun _ => rfl⟩, fun a ha => ?_, fun as e => ?_⟩
      · cases ha; exact ⟨_, rfl, rfl, hr⟩
      · cases e; rfl
    · cases h
  · cases h
    refine ⟨⟨fun e => (by cases e), fun ⟨as, e⟩ => (by simp at e)⟩, fun a ha => (by cases ha), fun as e => (by simp at e)⟩
  · rename_i h1 h2
    cases h
    refine ⟨⟨fun e => (by cases e), fun ⟨as, e⟩ => absurd e (h1 as)⟩, fun a ha => (by cases ha), fun as e => absurd e (h1 as)⟩

/-- what grouping makes of the receivers of one name -/
theorem groupOne_spec {n : String} {l : List Obj} {o : Obj} (h : groupOne n l = some o) :
    o.name = n ∧ (∀ e, o.ext = some e ↔ ∃ x ∈ l, x.name = n ∧ x.ext = some e) ∧
    (∀ a, o.attr = some a ↔ ∃ x ∈ l, x.name = n ∧ x.attr = some a) := by
  unfold groupOne at h
  simp only at h
  split at h
  · cases h
  · rename_i h1
    split at h
    · cases h
    · rename_i h2
      cases h
      refine ⟨rfl, fun e => ?_, fun a => ?_⟩
      · have hm : e ∈ ((named n l).filterMap (·.ext)).dedup ↔ ∃ x ∈ l, x.name = n ∧ x.ext = some e := by
          rw [List.mem_dedup, List.mem_filterMap]
          constructor
          · rintro ⟨x, hx, he⟩
            obtain ⟨hx, hn⟩ := List.mem_filter.1 hx
            exact ⟨x, hx, by simpa using hn, he⟩
          · rintro ⟨x, hx, hn, he⟩
            exact ⟨x, List.mem_filter.2 ⟨hx, by simpa using hn⟩, he⟩
        rw [← hm]
        generalize ((named n l).filterMap (·.ext)).dedup = d at h1 ⊢
        match d, h1 with
        | [], _ => simp
        | [y], _ => simp [eq_comm]
        | _ :: _ :: _, h1 => simp at h1
      · have hm : a ∈ (named n l).filterMap (·.attr) ↔ ∃ x ∈ l, x.name = n ∧ x.attr = some a := by
          rw [List.mem_filterMap]
          constructor
          · rintro ⟨x, hx, he⟩
            obtain ⟨hx, hn⟩ := List.mem_filter.1 hx
            exact ⟨x, hx, by simpa using hn, he⟩
          · rintro ⟨x, hx, hn, he⟩
            exact ⟨x, List.mem_filter.2 ⟨hx, by simpa using hn⟩, he⟩
        rw [← hm]
        generalize (named n l).filterMap (·.attr) = d at h2 ⊢
        simp only [Bool.not_eq_true, List.any_eq_false, decide_eq_true_eq, not_not] at h2
        constructor
        · intro e; exact List.mem_of_mem_head? e
        · intro e; exact h2 a e

theorem group_spec {l rs : List Obj} (h : group l = some rs) :
    (rs.map (·.name)).Nodup ∧ (∀ x ∈ l, ∃ o ∈ rs, o.name = x.name) ∧ ∀ o ∈ rs,
      (∀ e, o.ext = some e ↔ ∃ x ∈ l, x.name = o.name ∧ x.ext = some e) ∧ (∀ a, o.attr = some a ↔ ∃ x ∈ l, x.name = o.name ∧ x.attr = some a) := by
  have hf := mapM_forall₂ _ h
  refine ⟨?_, fun x hx => ?_, fun o ho => ?_⟩
  · have : rs.map (·.name) = (l.map (·.name)).dedup := by
      clear h
      generalize (l.map (·.name)).dedup = d at hf
      induction hf with
      | nil => rfl
      | cons hh _ ih => rw [List.map_cons, ih, (groupOne_spec hh).1]
    rw [this]
    exact List.nodup_dedup _
  · obtain ⟨o, ho, hg⟩ := (forall₂_mem hf).1 x.name (List.mem_dedup.2 (List.mem_map_of_mem hx))
    exact ⟨o, ho, (groupOne_spec hg).1⟩
  · obtain ⟨n, -, hg⟩ := (forall₂_mem hf).2 o ho
    obtain ⟨h1, h2, h3⟩ := groupOne_spec hg
    subst h1
    exact ⟨h2, h3⟩

/-! ### the input parameters -/

section compile
variable {L : Lang} {rd : String → Option ℚ} {recvs sends : List (String × List String)}

/-- names that begin with a digit are written with a `_` in front: no other name is written like that already -/
def NoClash (L : Lang) (l : List (String × List String)) : Prop := ∀ x ∈ l, ∀ y ∈ l, escape L.isDigit x.1 = escape L.isDigit y.1 → x.1 = y.1

theorem plugin_cases (h : L.plugin rd recvs sends = some E) : ∃ rs ss gs, Read rd recvs rs ∧ sends.mapM (fun x => pdObj rd x.1 x.2) = some ss ∧
    group rs = some gs ∧ noConflicts L.upper (L.inputs gs) = true ∧ noConflicts L.upper (L.outputs ss) = true ∧
    E.ins = L.inputs gs ∧ E.outs = (L.outputs ss).filter fun x =>
        ¬ ((ss.map fun o => escape L.isDigit o.name).filter (fun n => n ∈ midiOut)).contains x.1 := by
  unfold Lang.plugin at h
  cases hr : recvs.mapM (fun x => pdObj rd x.1 x.2) with
  | none => simp [hr] at h
  | some rs =>
    cases hs : sends.mapM (fun x => pdObj rd x.1 x.2) with
    | none => simp [hr, hs] at h
    | some ss =>
      simp only [hr, hs, Lang.compile] at h
      cases hg : group rs with
      | none => simp [hg] at h
      | some gs =>
        simp only [hg] at h
        split at h
        · rename_i hc
          simp only [Bool.and_eq_true] at hc
          cases h
          exact ⟨rs, ss, gs, read_of hr, rfl, hg, hc.1.2, hc.2, rfl, rfl⟩
        · cases h

theorem inputs_mem {gs : List Obj} (hk : (gs.map fun o => escape L.isDigit o.name).Nodup) (k : String) (p : Param) :
    (k, p) ∈ L.inputs gs ↔ ∃ o ∈ gs, o.ext = some .param ∧ k = escape L.isDigit o.name ∧ p = L.param o := by
  unfold Lang.inputs
  rw [(sortKeys_perm _).mem_iff, List.mem_map]
  have hk' : ((gs.map fun o => (escape L.isDigit o.name, o)).map (·.1)).Nodup := by rw [List.map_map]; exact hk
  constructor
  · rintro ⟨⟨k', o⟩, hx, he⟩
    obtain ⟨hx, hp⟩ := List.mem_filter.1 hx
    rw [dictOf_mem_of_nodup _ hk', List.mem_map] at hx
    obtain ⟨o', ho, e⟩ := hx
    cases e
    cases he
    exact ⟨_, ho, by simpa using hp, rfl, rfl⟩
  · rintro ⟨o, ho, hp, rfl, rfl⟩
    refine ⟨(escape L.isDigit o.name, o), List.mem_filter.2 ⟨?_, by simpa using hp⟩, rfl⟩
    rw [dictOf_mem_of_nodup _ hk', List.mem_map]
    exact ⟨o, ho, rfl⟩

theorem keys_nodup (hn : NoClash L recvs) {rs gs : List Obj} (hr : Read rd recvs rs) (hg : group rs = some gs) :
    (gs.map fun o => escape L.isDigit o.name).Nodup := by
  have hnd := (group_spec hg).1
  have hin : ∀ o ∈ gs, ∃ x ∈ recvs, x.1 = o.name := by
    intro o ho
    obtain ⟨n, hm, hgo⟩ := (forall₂_mem (mapM_forall₂ _ hg)).2 o ho
    obtain ⟨y, hy, e⟩ := List.mem_map.1 (List.mem_dedup.1 hm)
    obtain ⟨x, hx, hp⟩ := hr.only y hy
    exact ⟨x, hx, by rw [← pdObj_name hp, e, (groupOne_spec hgo).1]⟩
  have : gs.map (fun o => escape L.isDigit o.name) = (gs.map (·.name)).map (escape L.isDigit) := by rw [List.map_map]; rfl
  rw [this]
  refine List.Nodup.map_on ?_ hnd
  intro a ha b hb e
  obtain ⟨o, ho, rfl⟩ := List.mem_map.1 ha
  obtain ⟨q, hq, rfl⟩ := List.mem_map.1 hb
  obtain ⟨x, hx, e1⟩ := hin o ho
  obtain ⟨y, hy, e2⟩ := hin q hq
  rw [← e1, ← e2] at e ⊢
  exact hn x hx y hy e

/-- **C73** the input parameters of the plugin are what is written with `@hv_param` in the patch, with the range written there -/
theorem inputs_are (h : L.plugin rd recvs sends = some E) (hn : NoClash L recvs) (p : Param) :
    (∃ (i : ℕ) (k : String), E.ins[i]? = some (k, p)) ↔ ∃ args, (p.display, "@hv_param" :: args) ∈ recvs ∧ p.attr = readAttr rd args ∧ p.hash = L.hash p.display := by
  obtain ⟨rs, ss, gs, hr, -, hg, -, -, hi, -⟩ := plugin_cases h
  have hk := keys_nodup hn hr hg
  have hs := (group_spec hg).2
  have : (∃ (i : ℕ) (k : String), E.ins[i]? = some (k, p)) ↔ ∃ o ∈ gs, o.ext = some .param ∧ p = L.param o := by
    rw [hi]
    constructor
    · rintro ⟨i, k, hx⟩
      obtain ⟨o, ho, h1, -, h2⟩ := (inputs_mem hk k p).1 (List.mem_of_getElem? hx)
      exact ⟨o, ho, h1, h2⟩
    · rintro ⟨o, ho, h1, h2⟩
      obtain ⟨i, hx⟩ := List.mem_iff_getElem?.1 ((inputs_mem hk _ p).2 ⟨o, ho, h1, rfl, h2⟩)
      exact ⟨i, _, hx⟩
  rw [this]
  constructor
  · rintro ⟨o, ho, he, rfl⟩
    obtain ⟨x, hx, hxn, hxe⟩ := ((hs.2 o ho).1 _).1 he
    obtain ⟨⟨n, args⟩, hy, hyo⟩ := hr.only x hx
    obtain ⟨as, hargs⟩ := (pdObj_param hyo).1.1 hxe
    simp only at hargs
    subst hargs
    have ha := (pdObj_param hyo).2.2 as rfl
    refine ⟨as, ?_, ?_, rfl⟩
    · have e : n = o.name := by rw [← hxn]; exact (pdObj_name hyo).symm
      subst e; exact hy
    · have := ((hs.2 o ho).2 _).2 ⟨x, hx, hxn, ha⟩
      simp [Lang.param, this]
  · rintro ⟨args, hx, ha, hh⟩
    obtain ⟨x, hxm, hxo⟩ := hr.all _ hx
    obtain ⟨o, ho, hon⟩ := hs.1 x hxm
    refine ⟨o, ho, ((hs.2 o ho).1 _).2 ⟨x, hxm, hon.symm, (pdObj_param hxo).1.2 ⟨_, rfl⟩⟩, ?_⟩
    have hattr := ((hs.2 o ho).2 _).2 ⟨x, hxm, hon.symm, (pdObj_param hxo).2.2 _ rfl⟩
    have hname : o.name = p.display := hon.trans (pdObj_name hxo)
    cases p
    simp only at ha hh hname
    simp [Lang.param, hattr, hname, ha, hh]

/-- **C73** a name is one parameter -/
theorem inputs_once (h : L.plugin rd recvs sends = some E) (hn : NoClash L recvs) {i j : ℕ} {k k' : String} {p q : Param}
    (hi : E.ins[i]? = some (k, p)) (hj : E.ins[j]? = some (k', q)) (e : p.display = q.display) : i = j := by
  obtain ⟨rs, ss, gs, hr, -, hg, hc, -, hE, -⟩ := plugin_cases h
  have hk := keys_nodup hn hr hg
  rw [hE] at hi hj
  obtain ⟨o, -, -, hko, hpo⟩ := (inputs_mem hk k p).1 (List.mem_of_getElem? hi)
  obtain ⟨o', -, -, hko', hpo'⟩ := (inputs_mem hk k' q).1 (List.mem_of_getElem? hj)
  have : k = k' := by
    rw [hko, hko', show o.name = o'.name by rw [hpo, hpo'] at e; exact e]
  subst this
  have hnd := (noConflicts_iff _ _).1 hc
  obtain ⟨hi1, hi2⟩ := List.getElem?_eq_some_iff.1 hi
  obtain ⟨hj1, hj2⟩ := List.getElem?_eq_some_iff.1 hj
  refine (hnd.getElem_inj_iff (hi := by rw [List.length_map]; exact hi1) (hj := by rw [List.length_map]; exact hj1)).1 ?_
  rw [List.getElem_map, List.getElem_map, hi2, hj2]

/-- **C73** the default value of a parameter is in its range -/
theorem input_range (h : L.plugin rd recvs sends = some E) (hn : NoClash L recvs) {i : ℕ} {k : String} {p : Param}
    (hi : E.ins[i]? = some (k, p)) : p.attr.min ≤ p.attr.dflt ∧ p.attr.dflt ≤ p.attr.max := by
  obtain ⟨args, hx, ha, -⟩ := (inputs_are h hn p).1 ⟨i, k, hi⟩
  obtain ⟨rs, -, -, hr, -⟩ := plugin_cases h
  obtain ⟨o, -, ho⟩ := hr.all _ hx
  obtain ⟨-, h1, h2⟩ := pdObj_param ho
  obtain ⟨as, e, e1, e2⟩ := h1 _ (h2 args rfl)
  rw [ha]
  exact e2

/-- **C73** what is written twice must be the same: else nothing is compiled -/
theorem inputs_agree (h : L.plugin rd recvs sends = some E) {n : String} {as bs : List String}
    (ha : (n, "@hv_param" :: as) ∈ recvs) (hb : (n, "@hv_param" :: bs) ∈ recvs) : readAttr rd as = readAttr rd bs := by
  obtain ⟨rs, -, gs, hr, -, hg, -⟩ := plugin_cases h
  obtain ⟨x, hx, hxo⟩ := hr.all _ ha
  obtain ⟨y, hy, hyo⟩ := hr.all _ hb
  obtain ⟨o, ho, hon⟩ := (group_spec hg).2.1 x hx
  have hs := ((group_spec hg).2.2 o ho).2
  have h1 := (hs _).2 ⟨x, hx, hon.symm, (pdObj_param hxo).2.2 _ rfl⟩
  have h2 := (hs _).2 ⟨y, hy, by rw [hon, pdObj_name hxo, pdObj_name hyo], (pdObj_param hyo).2.2 _ rfl⟩
  rw [h1] at h2
  exact Option.some.inj h2

/-- ... nor both a parameter and an event -/
theorem not_event (h : L.plugin rd recvs sends = some E) {n : String} {as bs : List String}
    (ha : (n, "@hv_param" :: as) ∈ recvs) : (n, "@hv_event" :: bs) ∉ recvs := by
  intro hb
  obtain ⟨rs, -, gs, hr, -, hg, -⟩ := plugin_cases h
  obtain ⟨x, hx, hxo⟩ := hr.all _ ha
  obtain ⟨y, hy, hyo⟩ := hr.all _ hb
  obtain ⟨o, ho, hon⟩ := (group_spec hg).2.1 x hx
  have hs := ((group_spec hg).2.2 o ho).1
  have h1 := (hs _).2 ⟨x, hx, hon.symm, (pdObj_param hxo).1.2 ⟨_, rfl⟩⟩
  have h2 := (hs .event).2 ⟨y, hy, by rw [hon, pdObj_name hxo, pdObj_name hyo], by simp [pdObj] at hyo; rw [← hyo]⟩
  rw [h1] at h2
  cases h2

/-! ### the output parameters -/

/-- the sends that are output parameters, in the order of the patch -/
def outEntry (L : Lang) (rd : String → Option ℚ) : String × List String → Option (String × Param)
  | (n, "@hv_param" :: as) => some (escape L.isDigit n, ⟨n, readAttr rd as, L.hash n⟩)
  | _ => none

theorem outEntry_some {x : String × List String} {y : String × Param} (h : outEntry L rd x = some y) :
    ∃ as, x = (y.2.display, "@hv_param" :: as) ∧ y = (escape L.isDigit y.2.display, ⟨y.2.display, readAttr rd as, L.hash y.2.display⟩) := by
  unfold outEntry at h
  split at h
  · cases h; exact ⟨_, rfl, rfl⟩
  · cases h

theorem entries_eq {ss : List Obj} (h : sends.mapM (fun x => pdObj rd x.1 x.2) = some ss) : L.entries ss = sends.filterMap (outEntry L rd) := by
  have hf := mapM_forall₂ _ h
  clear h
  unfold Lang.entries
  induction hf with
  | nil => rfl
  | @cons x o l l' hh _ ih =>
    obtain ⟨n, args⟩ := x
    have hp := pdObj_param hh
    have hnm := pdObj_name hh
    simp only at hnm
    by_cases hc : o.ext = some .param
    · obtain ⟨as, rfl⟩ := hp.1.1 hc
      have hat := hp.2.2 as rfl
      rw [List.filter_cons_of_pos (by simpa using hc), List.map_cons, ih, List.filterMap_cons]
      simp [outEntry, Lang.param, hnm, hat]
    · rw [List.filter_cons_of_neg (by simpa using hc), ih, List.filterMap_cons]
      have : outEntry L rd (n, args) = none := by
        unfold outEntry
        split
        · rename_i heq
          cases heq
          exact absurd (hp.1.2 ⟨_, rfl⟩) hc
        · rfl
      rw [this]

/-- the output parameters are the last values of the keys, except for the names of the MIDI objects -/
theorem outs_mem (h : L.plugin rd recvs sends = some E) (k : String) (p : Param) :
    (k, p) ∈ E.outs ↔ (k, p) ∈ dictOf (sends.filterMap (outEntry L rd)) ∧ k ∉ midiOut := by
  obtain ⟨rs, ss, gs, -, hs, -, -, -, -, ho⟩ := plugin_cases h
  rw [ho, List.mem_filter]
  unfold Lang.outputs
  rw [(sortKeys_perm _).mem_iff, entries_eq hs]
  refine and_congr_right fun hm => ?_
  have hk : k ∈ ss.map fun o => escape L.isDigit o.name := by
    rw [← entries_eq hs] at hm
    obtain ⟨l₁, l₂, e, -⟩ := (dictOf_mem _ k p).1 hm
    have : (k, p) ∈ L.entries ss := by rw [e]; simp
    obtain ⟨o, ho, e⟩ := List.mem_map.1 this
    cases e
    exact List.mem_map.2 ⟨o, (List.mem_filter.1 ho).1, rfl⟩
  simp only [List.contains_iff_mem, List.mem_filter, decide_eq_true_eq, not_and, decide_not, Bool.not_eq_true',
    decide_eq_false_iff_not]
  exact ⟨fun f => f hk, fun f _ => f⟩

/-- **C73** the output parameters of the plugin are what is written with `@hv_param` at sends in the patch; the range is the one of the
last such send of a name -/
theorem outputs_are (h : L.plugin rd recvs sends = some E) (hn : NoClash L sends) (p : Param) :
    (∃ (j : ℕ) (k : String), E.outs[j]? = some (k, p)) ↔
      escape L.isDigit p.display ∉ midiOut ∧ p.hash = L.hash p.display ∧ ∃ args l₁ l₂, sends = l₁ ++ (p.display, "@hv_param" :: args) :: l₂ ∧
        (∀ as, (p.display, "@hv_param" :: as) ∉ l₂) ∧ p.attr = readAttr rd args := by
  have : (∃ (j : ℕ) (k : String), E.outs[j]? = some (k, p)) ↔ ∃ k, (k, p) ∈ E.outs :=
    ⟨fun ⟨j, k, e⟩ => ⟨k, List.mem_of_getElem? e⟩, fun ⟨k, e⟩ => let ⟨j, hj⟩ := List.mem_iff_getElem?.1 e; ⟨j, k, hj⟩⟩
  rw [this]
  simp only [outs_mem h]
  constructor
  · rintro ⟨k, hm, hk⟩
    obtain ⟨a, b, e, hb⟩ := (dictOf_mem _ k p).1 hm
    obtain ⟨l₁, l₂, rfl, -, h2⟩ := List.filterMap_eq_append_iff.1 e
    obtain ⟨l₃, x, l₄, rfl, -, hx, h4⟩ := List.filterMap_eq_cons_iff.1 h2
    obtain ⟨as, ex, ey⟩ := outEntry_some hx
    simp only at ex ey
    subst ex
    have hke : k = escape L.isDigit p.display := (Prod.mk.inj ey).1
    have hpe := (Prod.mk.inj ey).2
    refine ⟨by rw [← hke]; exact hk, by rw [hpe], as, l₁ ++ l₃, l₄, by simp, fun bs hbs => ?_, by rw [hpe]⟩
    refine hb (k, ⟨p.display, readAttr rd bs, L.hash p.display⟩) ?_ rfl
    rw [← h4]
    exact List.mem_filterMap.2 ⟨_, hbs, by rw [hke]; rfl⟩
  · rintro ⟨hk, hh, args, l₁, l₂, rfl, hl, ha⟩
    refine ⟨escape L.isDigit p.display, ?_, hk⟩
    rw [dictOf_mem, List.filterMap_append, List.filterMap_cons]
    refine ⟨l₁.filterMap (outEntry L rd), l₂.filterMap (outEntry L rd), ?_, fun y hy e => ?_⟩
    · have : outEntry L rd (p.display, "@hv_param" :: args) = some (escape L.isDigit p.display, p) := by
        cases p; simp only at ha hh; simp [outEntry, ha, hh]
      rw [this]
    · obtain ⟨x, hx, hy⟩ := List.mem_filterMap.1 hy
      obtain ⟨as, rfl, ey⟩ := outEntry_some hy
      rw [ey] at e
      have := hn (y.2.display, "@hv_param" :: as) (by simp [hx]) (p.display, "@hv_param" :: args) (by simp) e
      simp only at this
      rw [this] at hx
      exact hl as hx

theorem outs_keys (h : L.plugin rd recvs sends = some E) : (E.outs.map (·.1)).Nodup := by
  obtain ⟨rs, ss, gs, -, hs, -, -, -, -, ho⟩ := plugin_cases h
  rw [ho]
  refine List.Nodup.sublist (List.Sublist.map _ (List.filter_sublist)) ?_
  unfold Lang.outputs
  exact ((sortKeys_perm _).map _).nodup_iff.2 (dictOf_nodup _)

/-- **C73** a name is one output parameter -/
theorem outputs_once (h : L.plugin rd recvs sends = some E) {i j : ℕ} {k k' : String} {p q : Param}
    (hi : E.outs[i]? = some (k, p)) (hj : E.outs[j]? = some (k', q)) (e : p.display = q.display) : i = j := by
  have hk : ∀ {k : String} {p : Param}, (k, p) ∈ E.outs → k = escape L.isDigit p.display := by
    intro k p hm
    obtain ⟨a, b, e, -⟩ := (dictOf_mem _ k p).1 ((outs_mem h k p).1 hm).1
    have : (k, p) ∈ sends.filterMap (outEntry L rd) := by rw [e]; simp
    obtain ⟨x, -, hx⟩ := List.mem_filterMap.1 this
    obtain ⟨as, -, ey⟩ := outEntry_some hx
    exact (Prod.mk.inj ey).1
  have hnd : (E.outs.map (·.1)).Nodup := outs_keys h
  obtain ⟨hi1, hi2⟩ := List.getElem?_eq_some_iff.1 hi
  obtain ⟨hj1, hj2⟩ := List.getElem?_eq_some_iff.1 hj
  refine (hnd.getElem_inj_iff (hi := by rw [List.length_map]; exact hi1) (hj := by rw [List.length_map]; exact hj1)).1 ?_
  rw [List.getElem_map, List.getElem_map, hi2, hj2]
  simp only
  rw [hk (List.mem_of_getElem? hi), hk (List.mem_of_getElem? hj), e]

/-- **C73** the default value of an output parameter is in its range -/
theorem output_range (h : L.plugin rd recvs sends = some E) (hn : NoClash L sends) {j : ℕ} {k : String} {p : Param}
    (hj : E.outs[j]? = some (k, p)) : p.attr.min ≤ p.attr.dflt ∧ p.attr.dflt ≤ p.attr.max := by
  obtain ⟨-, -, args, l₁, l₂, rfl, -, ha⟩ := (outputs_are h hn p).1 ⟨j, k, hj⟩
  obtain ⟨-, ss, -, -, hs, -⟩ := plugin_cases h
  obtain ⟨o, -, ho⟩ := (read_of hs).all (p.display, "@hv_param" :: args) (by simp)
  obtain ⟨-, h1, h2⟩ := pdObj_param ho
  obtain ⟨as, e, e1, e2⟩ := h1 _ (h2 args rfl)
  rw [ha]
  exact e2

/-! ### the plugin is fine -/

/-- **C73** the plugin of a patch is one that C++ compiles and that keeps its parameters apart: if no two names have the same hash, no
two are written alike, and none is an input and an output parameter -/
theorem fine (h : L.plugin rd recvs sends = some E) (hr : NoClash L recvs) (hs : NoClash L sends)
    (hh : ∀ x ∈ recvs ++ sends, ∀ y ∈ recvs ++ sends, L.hash x.1 = L.hash y.1 → x.1 = y.1)
    (hd : ∀ n as bs, (n, "@hv_param" :: as) ∈ recvs → (n, "@hv_param" :: bs) ∉ sends) : Fine E L.upper := by
  have hI : ∀ x ∈ E.ins, ∃ as, (x.2.display, "@hv_param" :: as) ∈ recvs ∧ x.2.hash = L.hash x.2.display := by
    intro x hx
    obtain ⟨i, hi⟩ := List.mem_iff_getElem?.1 hx
    obtain ⟨as, h1, -, h2⟩ := (inputs_are h hr x.2).1 ⟨i, x.1, hi⟩
    exact ⟨as, h1, h2⟩
  have hO : ∀ x ∈ E.outs, ∃ as, (x.2.display, "@hv_param" :: as) ∈ sends ∧ x.2.hash = L.hash x.2.display := by
    intro x hx
    obtain ⟨i, hi⟩ := List.mem_iff_getElem?.1 hx
    obtain ⟨-, h2, as, l₁, l₂, e, -⟩ := (outputs_are h hs x.2).1 ⟨i, x.1, hi⟩
    exact ⟨as, by rw [e]; simp, h2⟩
  have nI : (E.ins.map (·.2.display)).Nodup := by
    rw [List.nodup_iff_injective_getElem]
    rintro ⟨i, hi⟩ ⟨j, hj⟩ e
    simp only [List.getElem_map] at e
    rw [List.length_map] at hi hj
    rw [Fin.mk.injEq]
    exact inputs_once h hr (List.getElem?_eq_getElem hi) (List.getElem?_eq_getElem hj) e
  have nO : (E.outs.map (·.2.display)).Nodup := by
    rw [List.nodup_iff_injective_getElem]
    rintro ⟨i, hi⟩ ⟨j, hj⟩ e
    simp only [List.getElem_map] at e
    rw [List.length_map] at hi hj
    rw [Fin.mk.injEq]
    exact outputs_once h (List.getElem?_eq_getElem hi) (List.getElem?_eq_getElem hj) e
  refine ⟨?_, ?_, ?_, ?_⟩
  · obtain ⟨rs, ss, gs, -, -, -, hc, -, hi, -⟩ := plugin_cases h
    rw [hi]
    exact (noConflicts_iff _ _).1 hc
  · unfold Externs.enum
    have : (E.ins ++ E.outs).map (fun x => "param" ++ x.2.display) = ((E.ins ++ E.outs).map (·.2.display)).map ("param" ++ ·) := by
      rw [List.map_map]; rfl
    rw [this]
    refine List.Nodup.map (fun a b e => ?_) ?_
    · have := congrArg String.toList e
      simp only [String.toList_append, List.append_cancel_left_eq] at this
      exact String.toList_injective this
    · rw [List.map_append, List.nodup_append]
      refine ⟨nI, nO, fun a ha b hb e => ?_⟩
      subst e
      obtain ⟨x, hx, e1⟩ := List.mem_map.1 ha
      obtain ⟨y, hy, e2⟩ := List.mem_map.1 hb
      obtain ⟨as, h1, -⟩ := hI x hx
      obtain ⟨bs, h2, -⟩ := hO y hy
      rw [e1] at h1
      rw [e2] at h2
      exact hd _ _ _ h1 h2
  · have : E.ins.map (·.2.hash) = (E.ins.map (·.2.display)).map L.hash := by
      rw [List.map_map]
      exact List.map_congr_left fun x hx => (hI x hx).choose_spec.2
    rw [this]
    refine List.Nodup.map_on (fun a ha b hb e => ?_) nI
    obtain ⟨x, hx, rfl⟩ := List.mem_map.1 ha
    obtain ⟨y, hy, rfl⟩ := List.mem_map.1 hb
    obtain ⟨as, h1, -⟩ := hI x hx
    obtain ⟨bs, h2, -⟩ := hI y hy
    exact hh _ (List.mem_append_left _ h1) _ (List.mem_append_left _ h2) e
  · have : E.outs.map (·.2.hash) = (E.outs.map (·.2.display)).map L.hash := by
      rw [List.map_map]
      exact List.map_congr_left fun x hx => (hO x hx).choose_spec.2
    rw [this]
    refine List.Nodup.map_on (fun a ha b hb e => ?_) nO
    obtain ⟨x, hx, rfl⟩ := List.mem_map.1 ha
    obtain ⟨y, hy, rfl⟩ := List.mem_map.1 hb
    obtain ⟨as, h1, -⟩ := hO x hx
    obtain ⟨bs, h2, -⟩ := hO y hy
    exact hh _ (List.mem_append_right _ h1) _ (List.mem_append_right _ h2) e

/-- **C73, the whole way**: what is written as `[r n @hv_param ...]` in a patch that hvcc compiles is one parameter of the plugin, and
after every history of the host and the patch its value is what the host has set last (else the default value written in the patch), and
what `[r n]` has got last -/
theorem written_input (h : L.plugin rd recvs sends = some E) (hr : NoClash L recvs) (hf : Fine E L.upper) {n : String} {args : List String}
    (hx : (n, "@hv_param" :: args) ∈ recvs) : ∃ i : ℕ, E.init i = some ⟨n, readAttr rd args, L.hash n⟩ ∧ ∀ l : List Call,
      getValue i (E.run L.upper l) = some (lastSet i (readAttr rd args).dflt l) ∧
      lastSent (L.hash n) (E.run L.upper l).sent = some (lastSet i (readAttr rd args).dflt l) := by
  obtain ⟨i, k, hi⟩ := (inputs_are h hr ⟨n, readAttr rd args, L.hash n⟩).2 ⟨args, hx, rfl, rfl⟩
  refine ⟨i, ?_, fun l => input_parameter hf l hi⟩
  rw [init_eq hf, List.getElem?_append_left (List.getElem?_eq_some_iff.1 hi).1, hi]
  rfl

/-- **C73, the whole way**, outputs: a send `[s n @hv_param ...]` (the last one of that name) is one parameter of the plugin, and after every
history its value is the number that the patch has sent last, else the default value -/
theorem written_output (h : L.plugin rd recvs sends = some E) (hs : NoClash L sends) (hf : Fine E L.upper) {n : String} {args : List String}
    {l₁ l₂ : List (String × List String)} (hx : sends = l₁ ++ (n, "@hv_param" :: args) :: l₂) (hl : ∀ as, (n, "@hv_param" :: as) ∉ l₂)
    (hm : escape L.isDigit n ∉ midiOut) : ∃ i : ℕ, E.init i = some ⟨n, readAttr rd args, L.hash n⟩ ∧ ∀ l : List Call,
      getValue i (E.run L.upper l) = some (lastOut (L.hash n) (readAttr rd args).dflt l) := by
  obtain ⟨j, k, hj⟩ := (outputs_are h hs ⟨n, readAttr rd args, L.hash n⟩).2 ⟨hm, rfl, args, l₁, l₂, hx, hl, rfl⟩
  refine ⟨E.ins.length + j, ?_, fun l => output_parameter hf l hj⟩
  rw [init_eq hf, List.getElem?_append_right (by omega), Nat.add_sub_cancel_left, hj]
  rfl

/-! ### asking the context -/

theorem exported_mem {gs : List Obj} (hk : (gs.map fun o => escape L.isDigit o.name).Nodup) (k : String) (o : Obj) :
    (k, o) ∈ L.exported gs ↔ o ∈ gs ∧ k = escape L.isDigit o.name ∧ o.ext.isSome = true := by
  unfold Lang.exported
  have hk' : ((gs.map fun o => (escape L.isDigit o.name, o)).map (·.1)).Nodup := by rw [List.map_map]; exact hk
  rw [List.mem_filter, (sortKeys_perm _).mem_iff, dictOf_mem_of_nodup _ hk', List.mem_map]
  constructor
  · rintro ⟨⟨o', ho, e⟩, hx⟩
    cases e
    exact ⟨ho, rfl, hx⟩
  · rintro ⟨ho, rfl, hx⟩
    exact ⟨⟨o, ho, rfl⟩, hx⟩

/-- **C73, `getParameterInfo`**: the indices below the returned count are exactly the names written with `@hv_param` or `@hv_event`, each
of them once, with its hash and its range; all other indices are reported as invalid -/
theorem parameter_info {gs : List Obj} (h : receivers rd recvs = some gs) (hn : NoClash L recvs) :
    (∀ n args, (n, "@hv_param" :: args) ∈ recvs → ∃ i < (L.getParameterInfo gs 0).2, (L.getParameterInfo gs i).1 =
      ⟨n, L.hash n, true, (readAttr rd args).min, (readAttr rd args).max, (readAttr rd args).dflt⟩) ∧
    (∀ n args, (n, "@hv_event" :: args) ∈ recvs → ∃ i < (L.getParameterInfo gs 0).2, (L.getParameterInfo gs i).1 = ⟨n, L.hash n, false, 0, 0, 0⟩) ∧
    (∀ i < (L.getParameterInfo gs 0).2, ∃ args, ((L.getParameterInfo gs i).1.name,
      (if (L.getParameterInfo gs i).1.isParam then "@hv_param" else "@hv_event") :: args) ∈ recvs) ∧
    (∀ i < (L.getParameterInfo gs 0).2, ∀ j < (L.getParameterInfo gs 0).2,
      (L.getParameterInfo gs i).1.name = (L.getParameterInfo gs j).1.name → i = j) ∧
    (∀ i, (L.getParameterInfo gs 0).2 ≤ i → (L.getParameterInfo gs i).1 = ⟨"invalid parameter index", 0, true, 0, 0, 0⟩) ∧
    ∀ i, (L.getParameterInfo gs i).2 = (L.getParameterInfo gs 0).2 := by
  unfold receivers at h
  rw [Option.bind_eq_some_iff] at h
  obtain ⟨rs, hrs, hg⟩ := h
  have hr := read_of hrs
  have hk := keys_nodup hn hr hg
  have hs := (group_spec hg).2
  have hlen : ∀ i, (L.getParameterInfo gs i).2 = (L.exported gs).length := fun i => rfl
  have hin : ∀ o ∈ gs, o.ext.isSome = true → ∃ i < (L.exported gs).length, (L.getParameterInfo gs i).1 = L.infoOf o := by
    intro o ho he
    obtain ⟨i, hi⟩ := List.mem_iff_getElem?.1 ((exported_mem hk _ o).2 ⟨ho, rfl, he⟩)
    exact ⟨i, (List.getElem?_eq_some_iff.1 hi).1, by simp [Lang.getParameterInfo, hi]⟩
  have hat : ∀ i < (L.exported gs).length, ∃ k, ∃ o ∈ gs, (L.exported gs)[i]? = some (k, o) ∧ k = escape L.isDigit o.name ∧ o.ext.isSome = true ∧
      (L.getParameterInfo gs i).1 = L.infoOf o := by
    intro i hi
    have hx := List.getElem?_eq_getElem hi
    obtain ⟨h1, h2, h3⟩ := (exported_mem hk _ _).1 (List.mem_of_getElem? hx)
    exact ⟨_, _, h1, hx, h2, h3, by simp [Lang.getParameterInfo, hx]⟩
  have hname : ∀ o : Obj, (L.infoOf o).name = o.name := by intro o; unfold Lang.infoOf; split <;> rfl
  simp only [hlen]
  refine ⟨fun n args hx => ?_, fun n args hx => ?_, fun i hi => ?_, fun i hi j hj e => ?_, fun i hi => ?_, fun i => trivial⟩
  · obtain ⟨x, hxm, hxo⟩ := hr.all _ hx
    obtain ⟨o, ho, hon⟩ := hs.1 x hxm
    have he := ((hs.2 o ho).1 _).2 ⟨x, hxm, hon.symm, (pdObj_param hxo).1.2 ⟨_, rfl⟩⟩
    have ha := ((hs.2 o ho).2 _).2 ⟨x, hxm, hon.symm, (pdObj_param hxo).2.2 _ rfl⟩
    obtain ⟨i, hi, e⟩ := hin o ho (by rw [he]; rfl)
    refine ⟨i, hi, ?_⟩
    have hnm : o.name = n := hon.trans (pdObj_name hxo)
    rw [e]
    simp [Lang.infoOf, he, ha, hnm]
  · obtain ⟨x, hxm, hxo⟩ := hr.all _ hx
    obtain ⟨o, ho, hon⟩ := hs.1 x hxm
    have he := ((hs.2 o ho).1 .event).2 ⟨x, hxm, hon.symm, by simp [pdObj] at hxo; rw [← hxo]⟩
    obtain ⟨i, hi, e⟩ := hin o ho (by rw [he]; rfl)
    refine ⟨i, hi, ?_⟩
    have hnm : o.name = n := hon.trans (pdObj_name hxo)
    rw [e]
    simp [Lang.infoOf, he, hnm]
  · obtain ⟨k, o, ho, -, -, he, hinfo⟩ := hat i hi
    rw [hinfo, hname]
    obtain ⟨e, he⟩ := Option.isSome_iff_exists.1 he
    obtain ⟨x, hx, hxn, hxe⟩ := ((hs.2 o ho).1 _).1 he
    obtain ⟨⟨n, args⟩, hy, hyo⟩ := hr.only x hx
    have hnm : n = o.name := by rw [← hxn]; exact (pdObj_name hyo).symm
    subst hnm
    cases e with
    | param =>
      obtain ⟨as, hargs⟩ := (pdObj_param hyo).1.1 hxe
      simp only at hargs
      subst hargs
      exact ⟨as, by simpa [Lang.infoOf, he] using hy⟩
    | event =>
      unfold pdObj at hyo
      split at hyo
      · simp only at hyo
        split at hyo
        · cases hyo; cases hxe
        · cases hyo
      · rename_i as heq
        simp only at heq
        subst heq
        exact ⟨as, by simpa [Lang.infoOf, he] using hy⟩
      · cases hyo; cases hxe
  · obtain ⟨k, o, ho, hi', hko, -, hinfo⟩ := hat i hi
    obtain ⟨k', q, hq, hj', hkq, -, hinfo'⟩ := hat j hj
    rw [hinfo, hinfo', hname, hname] at e
    have hnd : ((L.exported gs).map (·.1)).Nodup := by
      refine List.Nodup.sublist (List.Sublist.map _ (List.filter_sublist)) ?_
      exact ((sortKeys_perm _).map _).nodup_iff.2 (dictOf_nodup _)
    refine (hnd.getElem_inj_iff (hi := by rw [List.length_map]; exact hi) (hj := by rw [List.length_map]; exact hj)).1 ?_
    rw [List.getElem_map, List.getElem_map, (List.getElem?_eq_some_iff.1 hi').2, (List.getElem?_eq_some_iff.1 hj').2]
    simp only
    rw [hko, hkq, e]
  · simp [Lang.getParameterInfo, List.getElem?_eq_none hi]

/-- a patch that is compiled has receivers -/
theorem receivers_of_plugin (h : L.plugin rd recvs sends = some E) : ∃ gs, receivers rd recvs = some gs := by
  unfold Lang.plugin at h
  cases hr : recvs.mapM (fun x => pdObj rd x.1 x.2) with
  | none => simp [hr] at h
  | some rs =>
    cases hs : sends.mapM (fun x => pdObj rd x.1 x.2) with
    | none => simp [hr, hs] at h
    | some ss =>
      simp only [hr, hs, Lang.compile] at h
      cases hg : group rs with
      | none => simp [hg] at h
      | some gs => exact ⟨gs, by simp [receivers, hr, hg]⟩

end compile

/-! ## a patch, and what goes wrong -/

/-- the letters, the digits and the `_` of ASCII; upper case of ASCII; some hash -/
def ascii : Lang :=
  ⟨fun c => c.isAlphanum || c == '_', Char.isDigit, fun s => String.ofList (s.toList.map Char.toUpper), fun s => s.toList.foldl (fun h c => 31 * h + c.toNat) 7⟩

/-- the numbers of the patch below -/
def digits (s : String) : Option ℚ :=
  if s.toList.all Char.isDigit then some ((s.toList.foldl (fun n c => 10 * n + (c.toNat - 48)) 0 : ℕ) : ℚ) else none

/-- `[r vol @hv_param 0 10 3]` (twice), `[r 1st @hv_param]`, `[r reset @hv_event]`, `[r inner]`, `[s level @hv_param 0 1 0]`, `[s inner]` -/
def demoIn : List (String × List String) :=
  [("vol", ["@hv_param", "0", "10", "3"]), ("1st", ["@hv_param"]), ("reset", ["@hv_event"]), ("inner", []), ("vol", ["@hv_param", "0", "10", "3", "float"])]
def demoOut : List (String × List String) := [("level", ["@hv_param", "0", "1", "0"]), ("inner", [])]

/-- the plugin of that patch -/
def demo : Externs :=
  ⟨[("_1st", ⟨"1st", ⟨0, 1, 1 / 2, "float"⟩, ascii.hash "1st"⟩), ("vol", ⟨"vol", ⟨0, 10, 3, "float"⟩, ascii.hash "vol"⟩)],
   [("level", ⟨"level", ⟨0, 1, 0, "float"⟩, ascii.hash "level"⟩)]⟩

deriving instance DecidableEq for Externs

theorem demo_plugin : ascii.plugin digits demoIn demoOut = some demo := by decide +kernel

theorem demo_fine : Fine demo ascii.upper := by
  refine fine demo_plugin ?_ ?_ ?_ ?_
  · unfold NoClash; decide +kernel
  · unfold NoClash; decide +kernel
  · decide +kernel
  · intro n as bs h1 h2
    simp only [demoIn, demoOut, List.mem_cons, Prod.mk.injEq, List.not_mem_nil, or_false, List.cons.injEq] at h1 h2
    rcases h2 with ⟨rfl, -⟩ | ⟨-, h2⟩
    · revert h1; simp
    · cases h2

/-- the host sets the volume to 8 and the sample rate changes: the new context gets 8, and the patch's level of 1/4 is what the host reads -/
example : getValue 1 (demo.run ascii.upper [.set 1 8, .out (ascii.hash "level") (1 / 4), .rate]) = some 8 ∧
    lastSent (ascii.hash "vol") (demo.run ascii.upper [.set 1 8, .out (ascii.hash "level") (1 / 4), .rate]).sent = some 8 ∧
    getValue 2 (demo.run ascii.upper [.set 1 8, .out (ascii.hash "level") (1 / 4), .rate]) = some (1 / 4) := by decide +kernel

/-- **F96** a name that is an input and an output parameter passes all checks, but `enum Parameters` has the enumerator twice, which C++
rejects -/
theorem same_name (n : String) : ∀ E, ascii.plugin digits [(n, ["@hv_param"])] [(n, ["@hv_param"])] = some E → escape Char.isDigit n ∉ midiOut →
    ¬ E.enum.Nodup := by
  intro E h hm hd
  have hc : ∀ m, NoClash ascii [(m, ["@hv_param"])] := by
    intro m x hx y hy _
    rw [List.mem_singleton.1 hx, List.mem_singleton.1 hy]
  obtain ⟨i, k, hi⟩ := (inputs_are h (hc n) ⟨n, dfltAttr, ascii.hash n⟩).2 ⟨[], by simp, rfl, rfl⟩
  obtain ⟨j, k', hj⟩ := (outputs_are h (hc n) ⟨n, dfltAttr, ascii.hash n⟩).2 ⟨hm, rfl, [], [], [], rfl, by simp, rfl⟩
  unfold Externs.enum at hd
  rw [List.map_append, List.nodup_append] at hd
  exact hd.2.2 _ (List.mem_map_of_mem (List.mem_of_getElem? hi)) _ (List.mem_map_of_mem (List.mem_of_getElem? hj)) rfl

/-- ... and nothing stops it -/
theorem same_name_compiles : (ascii.plugin digits [("vol", ["@hv_param"])] [("vol", ["@hv_param"])]).isSome = true := by decide +kernel

/-- **F97** of the parameters `1a` and `_1a` one is lost, without an error -/
theorem underscore_lost : (ascii.plugin digits [("1a", ["@hv_param", "0", "10", "3"]), ("_1a", ["@hv_param", "0", "20", "4"])] []).map
    (fun E => E.ins.map fun x => (x.2.display, x.2.attr.max)) = some [("_1a", 20)] := by decide +kernel

/-- **F98** sends of one name with different ranges: the last one is taken, without an error -/
theorem send_last : (ascii.plugin digits [] [("level", ["@hv_param", "0", "10", "3"]), ("level", ["@hv_param", "0", "20", "4"])]).map
    (fun E => E.outs.map fun x => (x.2.display, x.2.attr.max)) = some [("level", 20)] := by decide +kernel

end Verif.Params
