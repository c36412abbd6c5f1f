import Verif.Signal
import Mathlib.Logic.Relation
import Mathlib.Data.List.Basic
import Mathlib.Data.Finite.Card
import Mathlib.Order.WellFounded
import Mathlib.Data.Fintype.EquivFin
/-!
# C30: the order of signal objects

Specification: `Feeds g p o` — some outlet of `p` is connected to an inlet of `o`.  `Before p o l` — `p` occurs in `l` before
an occurrence of `o`.
-/
namespace Verif.Signal
open Relation

/-! ### specification -/

/-- `p` is connected to an inlet of `o` -/
def Feeds (g : Graph) (p o : Nat) : Prop := ∃ l ∈ (g.obj o).inlets, ∃ c ∈ l.conns, c.src = p

/-- there is a path of connections (signal or control) from `p` to `o`, or `p = o` -/
abbrev Reach (g : Graph) : Nat → Nat → Prop := ReflTransGen (Feeds g)

/-- `p` occurs before `o` -/
def Before (p o : Nat) (l : List Nat) : Prop := ∃ l1 l2, l = l1 ++ o :: l2 ∧ p ∈ l1

/-- connections only lead to objects of the graph -/
def Closed (g : Graph) : Prop := ∀ o ∈ g.ids, ∀ p, Feeds g p o → p ∈ g.ids

theorem mem_parents {g : Graph} {p o : Nat} : p ∈ g.parents o ↔ Feeds g p o := by
  simp [Graph.parents, Feeds]

/-! ### depth-first search -/

/-- what a visit of the objects `os` does -/
structure Visited (g : Graph) (m os m' ord : List Nat) : Prop where
  mem : ∀ x, x ∈ m' ↔ x ∈ m ∨ x ∈ ord
  nodup : ord.Nodup
  new : ∀ x ∈ ord, x ∉ m
  all : ∀ x ∈ os, x ∈ m'
  anc : ∀ x ∈ ord, ∃ o ∈ os, Reach g x o
  closed : ∀ x ∈ ord, ∀ p, Feeds g p x → p ∈ m'
  before : ∀ x ∈ ord, ∀ p, Feeds g p x → p ∈ m ∨ Before p x ord ∨ Reach g x p
  ids : ∀ x ∈ ord, x ∈ g.ids

theorem Before.append_right {p o : Nat} {l : List Nat} (h : Before p o l) (l' : List Nat) : Before p o (l ++ l') := by
  obtain ⟨l1, l2, rfl, hp⟩ := h
  exact ⟨l1, l2 ++ l', by simp, hp⟩

theorem Before.append_left {p o : Nat} {l : List Nat} (h : Before p o l) (l' : List Nat) : Before p o (l' ++ l) := by
  obtain ⟨l1, l2, rfl, hp⟩ := h
  exact ⟨l' ++ l1, l2, by simp, by simp [hp]⟩

theorem before_append {p o : Nat} {l l' : List Nat} (hp : p ∈ l) (ho : o ∈ l') : Before p o (l ++ l') := by
  obtain ⟨a, b, rfl⟩ := List.append_of_mem ho
  exact ⟨l ++ a, b, by simp, by simp [hp]⟩

/-- how many objects are not marked -/
def unmarked (g : Graph) (m : List Nat) : Nat := (g.ids.filter fun x => x ∉ m).length

theorem unmarked_mono (g : Graph) (m m' : List Nat) (h : ∀ x ∈ m, x ∈ m') : unmarked g m' ≤ unmarked g m := by
  apply List.Sublist.length_le
  apply List.monotone_filter_right
  intro x
  simp only [decide_eq_true_eq]
  exact fun hx hm => hx (h x hm)

theorem filter_length_lt {β : Type} (l : List β) (P Q : β → Bool) (h : ∀ x, P x → Q x) (a : β) (ha : a ∈ l) (hq : Q a)
    (hp : ¬ P a) : (l.filter P).length < (l.filter Q).length := by
  induction l with
  | nil => simp at ha
  | cons x l ih =>
    have hle : (l.filter P).length ≤ (l.filter Q).length := (List.monotone_filter_right l h).length_le
    rcases List.mem_cons.mp ha with rfl | ha
    · simp [hq, hp]; omega
    · have := ih ha
      by_cases hx : P x
      · simp [hx, h x hx]; omega
      · by_cases hx' : Q x <;> simp [hx, hx'] <;> omega

theorem unmarked_cons (g : Graph) (m : List Nat) (o : Nat) (ho : o ∈ g.ids) (hm : o ∉ m) :
    unmarked g (o :: m) < unmarked g m := by
  apply filter_length_lt g.ids _ _ _ o ho
  · simpa using hm
  · simp
  · intro x; simp

theorem visitAll_ok (g : Graph) (rec : List Nat → Nat → List Nat × List Nat) (n : Nat)
    (hrec : ∀ m o, unmarked g m ≤ n → o ∈ g.ids → Visited g m [o] (rec m o).1 (rec m o).2) (os m : List Nat)
    (hn : unmarked g m ≤ n) (hos : ∀ o ∈ os, o ∈ g.ids) : Visited g m os (visitAll rec m os).1 (visitAll rec m os).2 := by
  induction os generalizing m with
  | nil => exact ⟨by simp [visitAll], by simp [visitAll], by simp [visitAll], by simp, by simp [visitAll], by simp [visitAll],
      by simp [visitAll], by simp [visitAll]⟩
  | cons o os ih =>
    simp only [visitAll]
    have a := hrec m o hn (hos o (by simp))
    generalize rec m o = ra at a ⊢
    obtain ⟨m1, l1⟩ := ra
    have hm1 : unmarked g m1 ≤ n := (unmarked_mono g m m1 fun x hx => (a.mem x).mpr (Or.inl hx)).trans hn
    have b := ih m1 hm1 fun x hx => hos x (by simp [hx])
    generalize visitAll rec m1 os = rb at b ⊢
    obtain ⟨m2, l2⟩ := rb
    simp only at a b ⊢
    refine ⟨fun x => ?_, ?_, fun x hx => ?_, fun x hx => ?_, fun x hx => ?_, fun x hx p hp => ?_, fun x hx p hp => ?_,
      fun x hx => ?_⟩
    · rw [b.mem, a.mem, List.mem_append, or_assoc]
    · refine List.nodup_append.mpr ⟨a.nodup, b.nodup, fun x hx y hy e => ?_⟩
      subst e
      exact b.new _ hy ((a.mem _).mpr (Or.inr hx))
    · rcases List.mem_append.mp hx with h | h
      · exact a.new x h
      · exact fun hm => b.new x h ((a.mem x).mpr (Or.inl hm))
    · rcases List.mem_cons.mp hx with rfl | h
      · exact (b.mem _).mpr (Or.inl (a.all _ (by simp)))
      · exact b.all x h
    · rcases List.mem_append.mp hx with h | h
      · obtain ⟨o', h1, h2⟩ := a.anc x h
        exact ⟨o', by simp at h1; simp [h1], h2⟩
      · obtain ⟨o', h1, h2⟩ := b.anc x h
        exact ⟨o', by simp [h1], h2⟩
    · rcases List.mem_append.mp hx with h | h
      · exact (b.mem p).mpr (Or.inl (a.closed x h p hp))
      · exact b.closed x h p hp
    · rcases List.mem_append.mp hx with h | h
      · rcases a.before x h p hp with h1 | h1 | h1
        · exact Or.inl h1
        · exact Or.inr (Or.inl (h1.append_right _))
        · exact Or.inr (Or.inr h1)
      · rcases b.before x h p hp with h1 | h1 | h1
        · rcases (a.mem p).mp h1 with h2 | h2
          · exact Or.inl h2
          · exact Or.inr (Or.inl (before_append h2 h))
        · exact Or.inr (Or.inl (h1.append_left _))
        · exact Or.inr (Or.inr h1)
    · rcases List.mem_append.mp hx with h | h
      · exact a.ids x h
      · exact b.ids x h

theorem getParentOrder_ok (g : Graph) (hc : Closed g) (f : Nat) : ∀ m o, unmarked g m ≤ f → o ∈ g.ids →
    Visited g m [o] (g.getParentOrder (f + 1) m o).1 (g.getParentOrder (f + 1) m o).2 := by
  induction f with
  | zero =>
    intro m o hf ho
    have hm : o ∈ m := by
      by_contra hm
      have := unmarked_cons g m o ho hm
      omega
    simp only [Graph.getParentOrder, if_pos hm]
    exact ⟨by simp, by simp, by simp, by simpa using hm, by simp, by simp, by simp, by simp⟩
  | succ f ih =>
    intro m o hf ho
    rw [Graph.getParentOrder]
    by_cases hm : o ∈ m
    · simp only [if_pos hm]
      exact ⟨by simp, by simp, by simp, by simpa using hm, by simp, by simp, by simp, by simp⟩
    · simp only [if_neg hm]
      have hu := unmarked_cons g m o ho hm
      have a := visitAll_ok g (g.getParentOrder (f + 1)) f ih (g.parents o) (o :: m) (by omega)
        fun p hp => hc o ho p (mem_parents.mp hp)
      generalize visitAll (g.getParentOrder (f + 1)) (o :: m) (g.parents o) = ra at a ⊢
      obtain ⟨m1, l1⟩ := ra
      simp only at a ⊢
      refine ⟨fun x => ?_, ?_, fun x hx => ?_, fun x hx => ?_, fun x hx => ?_, fun x hx p hp => ?_, fun x hx p hp => ?_,
        fun x hx => ?_⟩
      · rw [a.mem]; simp; tauto
      · refine List.nodup_append.mpr ⟨a.nodup, by simp, fun x hx y hy e => ?_⟩
        simp at hy; subst e hy
        exact a.new x hx (by simp)
      · rcases List.mem_append.mp hx with h | h
        · exact fun h' => a.new x h (by simp [h'])
        · simp at h; subst h; exact hm
      · simp at hx; subst hx; exact (a.mem x).mpr (Or.inl (by simp))
      · rcases List.mem_append.mp hx with h | h
        · obtain ⟨p, h1, h2⟩ := a.anc x h
          exact ⟨o, by simp, h2.tail (mem_parents.mp h1)⟩
        · simp at h; subst h; exact ⟨x, by simp, .refl⟩
      · rcases List.mem_append.mp hx with h | h
        · exact a.closed x h p hp
        · simp at h; subst h; exact a.all p (mem_parents.mpr hp)
      · rcases List.mem_append.mp hx with h | h
        · rcases a.before x h p hp with h1 | h1 | h1
          · rcases List.mem_cons.mp h1 with rfl | h1
            · obtain ⟨q, h2, h3⟩ := a.anc x h
              exact Or.inr (Or.inr (h3.tail (mem_parents.mp h2)))
            · exact Or.inl h1
          · exact Or.inr (Or.inl (h1.append_right _))
          · exact Or.inr (Or.inr h1)
        · simp at h; subst h
          rcases (a.mem p).mp (a.all p (mem_parents.mpr hp)) with h1 | h1
          · rcases List.mem_cons.mp h1 with rfl | h1
            · exact Or.inr (Or.inr .refl)
            · exact Or.inl h1
          · exact Or.inr (Or.inl ⟨l1, [], by simp, h1⟩)
      · rcases List.mem_append.mp hx with h | h
        · exact a.ids x h
        · simp at h; subst h; exact ho

theorem order_visited (g : Graph) (hc : Closed g) : ∃ m', Visited g [] (g.ids.filter g.isLeaf) m' g.order := by
  refine ⟨_, visitAll_ok g _ g.ids.length (getParentOrder_ok g hc g.ids.length) _ _ ?_ fun o ho => ?_⟩
  · exact List.length_filter_le _ _
  · exact (List.mem_filter.mp ho).1

theorem before_filter {p o : Nat} {l : List Nat} (P : Nat → Bool) (h : Before p o l) (hp : P p) (ho : P o) :
    Before p o (l.filter P) := by
  obtain ⟨a, b, rfl, hm⟩ := h
  exact ⟨a.filter P, b.filter P, by simp [ho], List.mem_filter.mpr ⟨hm, hp⟩⟩

/-! ### C30 -/

/-- a leaf: nothing is connected to its outlets -/
def Leaf (g : Graph) (o : Nat) : Prop := ∀ out ∈ (g.obj o).outlets, out.conns = 0

instance (g : Graph) (o : Nat) : Decidable (Leaf g o) := inferInstanceAs (Decidable (∀ out ∈ (g.obj o).outlets, out.conns = 0))

theorem isLeaf_iff (g : Graph) (o : Nat) : g.isLeaf o = true ↔ Leaf g o := by simp [Graph.isLeaf, Leaf]

/-- **C30**, for every graph, cyclic or not: every signal object that leads to a leaf occurs exactly once; and an object that
feeds another one runs before it, unless the connection closes a cycle (of signal and control connections) -/
theorem signal_order_correct (g : Graph) (hc : Closed g) :
    g.signalOrder.Nodup ∧
    (∀ o, o ∈ g.signalOrder ↔ (g.obj o).signal ∧ ∃ leaf ∈ g.ids, Leaf g leaf ∧ Reach g o leaf) ∧
    (∀ o ∈ g.signalOrder, ∀ p, Feeds g p o → (g.obj p).signal → ¬ Reach g o p → Before p o g.signalOrder) := by
  obtain ⟨m', h⟩ := order_visited g hc
  refine ⟨h.nodup.filter _, fun o => ?_, fun o ho p hp hs hr => ?_⟩
  · rw [Graph.signalOrder, List.mem_filter, and_comm]
    refine and_congr_right fun _ => ⟨fun ho => ?_, fun ⟨leaf, h1, h2, h3⟩ => ?_⟩
    · obtain ⟨l, hl, hr⟩ := h.anc o ho
      exact ⟨l, (List.mem_filter.mp hl).1, (isLeaf_iff g l).mp (List.mem_filter.mp hl).2, hr⟩
    · have hl : leaf ∈ g.order := by
        simpa using (h.mem leaf).mp (h.all leaf (List.mem_filter.mpr ⟨h1, (isLeaf_iff g leaf).mpr h2⟩))
      have key : ∀ a, Reach g a leaf → a ∈ g.order := by
        intro a ha
        induction ha using ReflTransGen.head_induction_on with
        | refl => exact hl
        | head hab _ ih => simpa using (h.mem _).mp (h.closed _ ih _ hab)
      exact key o h3
  · have ho' := List.mem_filter.mp ho
    rcases h.before o ho'.1 p hp with h1 | h1 | h1
    · simp at h1
    · exact before_filter _ h1 hs ho'.2
    · exact absurd h1 hr

theorem leaf_last_aux (g : Graph) (hc : Closed g) {w : Nat} (hw : ∀ x ∈ g.ids, ¬ Feeds g w x) : ∀ (os m : List Nat),
    (∀ o ∈ os, o ∈ g.ids) → (∀ x ∈ m, ∀ p, Feeds g p x → p ∈ m) → w ∈ os → w ∉ m → ∀ r, Reach g r w → r ≠ w →
    r ∈ m ∨ Before r w (visitAll (g.getParentOrder (g.ids.length + 1)) m os).2 := by
  have hun : ∀ m, unmarked g m ≤ g.ids.length := fun m => List.length_filter_le _ _
  have reach_mem : ∀ {l : List Nat}, (∀ x ∈ l, ∀ p, Feeds g p x → p ∈ l) → ∀ {a b}, Reach g a b → b ∈ l → a ∈ l := by
    intro l hl a b h
    induction h using ReflTransGen.head_induction_on with
    | refl => exact id
    | head h1 _ ih => exact fun hb => hl _ (ih hb) _ h1
  have reach_ids : ∀ {a b}, Reach g a b → b ∈ g.ids → a ∈ g.ids := fun h hb => reach_mem hc h hb
  intro os
  induction os with
  | nil => intro m _ _ h; simp at h
  | cons o os ih =>
    intro m hos hm hwo hwm r hr hne
    have a := getParentOrder_ok g hc g.ids.length m o (hun m) (hos o (by simp))
    have hm1 : ∀ x ∈ (g.getParentOrder (g.ids.length + 1) m o).1, ∀ p, Feeds g p x → p ∈ (g.getParentOrder (g.ids.length + 1) m o).1 := by
      intro x hx p hp
      rcases (a.mem x).1 hx with h | h
      · exact (a.mem p).2 (.inl (hm x h p hp))
      · exact a.closed x h p hp
    simp only [visitAll]
    by_cases e : o = w
    · subst e
      obtain ⟨l1, hl⟩ : ∃ l1, (g.getParentOrder (g.ids.length + 1) m o).2 = l1 ++ [o] := by
        rw [Graph.getParentOrder, if_neg hwm]
        exact ⟨_, rfl⟩
      have hrm := reach_mem hm1 hr (a.all o (by simp))
      rcases (a.mem r).1 hrm with h | h
      · exact .inl h
      · rw [hl] at h
        rcases List.mem_append.1 h with h | h
        · rw [hl]
          exact .inr ⟨l1, _, by rw [List.append_assoc]; rfl, h⟩
        · simp at h; exact absurd h hne
    · have hw1 : w ∉ (g.getParentOrder (g.ids.length + 1) m o).1 := by
        intro h
        rcases (a.mem w).1 h with h | h
        · exact hwm h
        · obtain ⟨o', h1, h2⟩ := a.anc w h
          simp only [List.mem_singleton] at h1
          subst h1
          rcases ReflTransGen.cases_head h2 with h3 | ⟨x, h3, h4⟩
          · exact e h3.symm
          · exact hw x (reach_ids h4 (hos o' (by simp))) h3
      have hwos : w ∈ os := by
        rcases List.mem_cons.1 hwo with h | h
        · exact absurd h.symm e
        · exact h
      have b := visitAll_ok g (g.getParentOrder (g.ids.length + 1)) g.ids.length (getParentOrder_ok g hc g.ids.length) os
        (g.getParentOrder (g.ids.length + 1) m o).1 (hun _) fun x hx => hos x (by simp [hx])
      have hwb : w ∈ (visitAll (g.getParentOrder (g.ids.length + 1)) (g.getParentOrder (g.ids.length + 1) m o).1 os).2 :=
        ((b.mem w).1 (b.all w hwos)).resolve_left hw1
      rcases ih _ (fun x hx => hos x (by simp [hx])) hm1 hwos hw1 r hr hne with h | h
      · rcases (a.mem r).1 h with h | h
        · exact .inl h
        · exact .inr (before_append h hwb)
      · exact .inr (h.append_left _)

/-- all that leads to an object that feeds nothing comes before it, whatever loops there are -/
theorem leaf_last (g : Graph) (hc : Closed g) {w r : Nat} (hw : w ∈ g.ids) (hl : Leaf g w) (hf : ∀ x ∈ g.ids, ¬ Feeds g w x)
    (hr : Reach g r w) (hne : r ≠ w) : Before r w g.order := by
  rcases leaf_last_aux g hc hf (g.ids.filter g.isLeaf) [] (fun o ho => (List.mem_filter.1 ho).1) (by simp)
    (List.mem_filter.2 ⟨hw, (isLeaf_iff g w).2 hl⟩) (by simp) r hr hne with h | h
  · simp at h
  · exact h

/-- no connection closes a cycle -/
def Acyclic (g : Graph) : Prop := ∀ o, ¬ TransGen (Feeds g) o o

/-- outlets and inlets agree: an object that is not a leaf feeds some object of the graph -/
def Consistent (g : Graph) : Prop := ∀ o ∈ g.ids, ¬ Leaf g o → ∃ p ∈ g.ids, Feeds g o p

/-- in an acyclic graph every object leads to a leaf -/
theorem reaches_leaf (g : Graph) (ha : Acyclic g) (hcs : Consistent g) (o : Nat) (ho : o ∈ g.ids) :
    ∃ leaf ∈ g.ids, Leaf g leaf ∧ Reach g o leaf := by
  have hf : Finite {x // x ∈ g.ids} := List.finite_toSet g.ids
  let r : {x // x ∈ g.ids} → {x // x ∈ g.ids} → Prop := fun a b => TransGen (Feeds g) b a
  have : IsTrans _ r := ⟨fun a b c h1 h2 => TransGen.trans h2 h1⟩
  have : Std.Irrefl r := ⟨fun a => ha a⟩
  have wf : WellFounded r := Finite.wellFounded_of_trans_of_irrefl r
  suffices H : ∀ x : {x // x ∈ g.ids}, ∃ leaf ∈ g.ids, Leaf g leaf ∧ Reach g x leaf from H ⟨o, ho⟩
  intro x
  induction x using wf.induction with
  | _ x ih =>
    by_cases hl : Leaf g x
    · exact ⟨x, x.2, hl, .refl⟩
    · obtain ⟨p, hp, hx⟩ := hcs x x.2 hl
      obtain ⟨l, h1, h2, h3⟩ := ih ⟨p, hp⟩ (TransGen.single hx)
      exact ⟨l, h1, h2, ReflTransGen.head hx h3⟩

/-- **C30** for acyclic graphs: exactly the signal objects, each once, each after all that feed it -/
theorem signal_order_acyclic (g : Graph) (hc : Closed g) (ha : Acyclic g) (hcs : Consistent g) :
    g.signalOrder.Nodup ∧
    (∀ o ∈ g.ids, (g.obj o).signal → o ∈ g.signalOrder) ∧
    (∀ o ∈ g.signalOrder, o ∈ g.ids ∧ (g.obj o).signal) ∧
    (∀ o ∈ g.signalOrder, ∀ p, Feeds g p o → (g.obj p).signal → Before p o g.signalOrder) := by
  obtain ⟨h1, h2, h3⟩ := signal_order_correct g hc
  obtain ⟨m', hv⟩ := order_visited g hc
  refine ⟨h1, fun o ho hs => (h2 o).mpr ⟨hs, reaches_leaf g ha hcs o ho⟩,
    fun o ho => ⟨hv.ids o (List.mem_filter.mp ho).1, (List.mem_filter.mp ho).2⟩, fun o ho p hp hs => h3 o ho p hp hs fun hr => ?_⟩
  rcases reflTransGen_iff_eq_or_transGen.mp hr with rfl | h
  · exact ha _ (TransGen.single hp)
  · exact ha o (h.trans (TransGen.single hp))

/-! ### what goes wrong with cycles -/

/-- `[osc~] → [*~] → [dac~]`, `[*~] → [env~]`, and the messages of `[env~]` go back to the right inlet of `[*~]`
(0: osc~, 1: *~, 2: env~, 3: dac~) -/
def envLoop : Graph where
  ids := [0, 1, 2, 3]
  obj
    | 0 => ⟨[], [⟨some .f, 1, .zero⟩], true⟩
    | 1 => ⟨[⟨[⟨0, 0, true⟩], .zero⟩, ⟨[⟨2, 0, false⟩], .zero⟩], [⟨some .f, 2, .zero⟩], true⟩
    | 2 => ⟨[⟨[⟨1, 0, true⟩], .zero⟩], [⟨none, 1, .zero⟩], true⟩
    | 3 => ⟨[⟨[⟨1, 0, true⟩], .zero⟩, ⟨[], .output 0⟩], [⟨some .f, 0, .output 0⟩], true⟩
    | _ => ⟨[], [], false⟩

/-- **C30 fails with control feedback**: the signal connections of this graph have no cycle, but `[env~]` runs before the
`[*~]` that feeds it, and is compiled to read the zero buffer -/
theorem control_feedback_breaks_order :
    envLoop.signalOrder = [0, 2, 1, 3] ∧
    (∃ st ss, envLoop.compile = .ok (st, ss) ∧ (⟨2, [.zero], [.zero]⟩ : Step) ∈ ss) := by
  refine ⟨by decide, _, _, rfl, by decide⟩

/-- two objects that feed each other through a third one, and nothing else (0 → 1 → 0) -/
def ring : Graph where
  ids := [0, 1]
  obj
    | 0 => ⟨[⟨[⟨1, 0, true⟩], .zero⟩], [⟨some .f, 1, .zero⟩], true⟩
    | 1 => ⟨[⟨[⟨0, 0, true⟩], .zero⟩], [⟨some .f, 1, .zero⟩], true⟩
    | _ => ⟨[], [], false⟩

/-- objects on a cycle that leads nowhere are dropped silently -/
theorem cycles_are_dropped : ring.signalOrder = [] := by decide

/-- `[osc~] → [*~] → [dac~]`, `[osc~] → [*~]` on both inlets (0: osc~, 1: *~, 2: dac~) -/
def chain : Graph where
  ids := [2, 1, 0]
  obj
    | 0 => ⟨[], [⟨some .f, 2, .zero⟩], true⟩
    | 1 => ⟨[⟨[⟨0, 0, true⟩], .zero⟩, ⟨[⟨0, 0, true⟩], .zero⟩], [⟨some .f, 1, .zero⟩], true⟩
    | 2 => ⟨[⟨[⟨1, 0, true⟩], .zero⟩, ⟨[], .output 0⟩], [⟨some .f, 0, .output 0⟩], true⟩
    | _ => ⟨[], [], false⟩

theorem chain_feeds {p o : Nat} (h : Feeds chain p o) : (o = 1 ∧ p = 0) ∨ (o = 2 ∧ p = 1) := by
  obtain ⟨l, hl, c, hc, rfl⟩ := h
  match o, hl with
  | 0, hl => simp [chain] at hl
  | 1, hl => simp [chain] at hl; subst hl; simp at hc; subst hc; simp
  | 2, hl => simp [chain] at hl; rcases hl with rfl | rfl <;> simp at hc; subst hc; simp
  | n + 3, hl => simp [chain] at hl

theorem chain_acyclic : Acyclic chain := by
  have lt : ∀ a b, TransGen (Feeds chain) a b → a < b := by
    intro a b h
    induction h with
    | single h => rcases chain_feeds h with ⟨rfl, rfl⟩ | ⟨rfl, rfl⟩ <;> decide
    | tail _ h ih => rcases chain_feeds h with ⟨rfl, rfl⟩ | ⟨rfl, rfl⟩ <;> omega
  exact fun o h => absurd (lt o o h) (Nat.lt_irrefl o)

/-- the hypotheses of `signal_order_acyclic` can be met -/
example : Closed chain ∧ Acyclic chain ∧ Consistent chain ∧ chain.signalOrder = [0, 1, 2] := by
  refine ⟨fun o _ p h => ?_, chain_acyclic, fun o ho hl => ?_, by decide⟩
  · rcases chain_feeds h with ⟨rfl, rfl⟩ | ⟨rfl, rfl⟩ <;> decide
  · simp [chain] at ho
    rcases ho with rfl | rfl | rfl
    · exact absurd hl (by decide)
    · exact ⟨2, by decide, ⟨_, List.mem_cons_self, _, List.mem_cons_self, rfl⟩⟩
    · exact ⟨1, by decide, ⟨_, List.mem_cons_self, _, List.mem_cons_self, rfl⟩⟩

end Verif.Signal
