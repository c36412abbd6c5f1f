import Verif.Prune
import Mathlib.Algebra.BigOperators.Group.List.Basic
import Mathlib.Data.List.Nodup
import Mathlib.Tactic.ByContra

/-! C89: removing the connections from inlets of subgraphs that nothing is connected to does not change what any
object gets. -/

namespace Verif.Prune

/-! ### The specification -/

def Tree.id : Tree → Nat
  | .node id _ _ => id

mutual
/-- The graphs of a tree: number and inlet objects. -/
def Tree.graphs : Tree → List (Nat × List Nat)
  | .node id inlets subs => (id, inlets) :: graphsAll subs
def graphsAll : List Tree → List (Nat × List Nat)
  | [] => []
  | t :: ts => t.graphs ++ graphsAll ts
end

mutual
/-- Which graph is directly inside which. -/
def Tree.holds : Tree → List (Nat × Nat)
  | .node id _ subs => subs.map (fun s => (id, s.id)) ++ holdsAll subs
def holdsAll : List Tree → List (Nat × Nat)
  | [] => []
  | t :: ts => t.holds ++ holdsAll ts
end

/-- What arrives at an inlet: the sum of what leaves the outlets connected to it.  For signals a sum of real numbers,
for messages the sum of multisets of messages with their times. -/
def arrives {M : Type} [AddCommMonoid M] (L : List Conn) (v : Nat → Nat → M) (o i : Nat) : M :=
  ((L.filter fun c => c.dst = o && c.inlet = i).map fun c => v c.src c.outlet).sum

/-- `x` is the object of inlet `i` of the graph `id`. -/
def Tree.Inlet (t : Tree) (id i x : Nat) : Prop := ∃ xs, (id, xs) ∈ t.graphs ∧ xs[i]? = some x

/-- `v` says what leaves each outlet of each object.  An inlet object gives what arrives at its inlet of its graph. -/
def Plays {M : Type} [AddCommMonoid M] (t : Tree) (L : List Conn) (v : Nat → Nat → M) : Prop :=
  ∀ id i x, t.Inlet id i x → v x 0 = arrives L v id i

/-- Something that is not an inlet reaches the inlet object `x`, if need be through the inlets of the graphs around. -/
inductive Fed (t : Tree) (L : List Conn) : Nat → Prop where
  | direct (id i x : Nat) (c : Conn) : t.Inlet id i x → c ∈ L → c.dst = id → c.inlet = i →
      (∀ h j, ¬ t.Inlet h j c.src) → Fed t L x
  | through (id i x : Nat) (c : Conn) : t.Inlet id i x → c ∈ L → c.dst = id → c.inlet = i → Fed t L c.src → Fed t L x

/-- The patch is well formed: `home` tells the graph an object is in.  Inlet objects are in their graph and have one
outlet, subgraphs are in their parent, connections do not leave a graph, the outermost graph is not an object, and
numbers are distinct. -/
structure Formed (t : Tree) (L : List Conn) (home : Nat → Nat) : Prop where
  ids : (t.graphs.map Prod.fst).Nodup
  inlets : ∀ g ∈ t.graphs, ∀ x ∈ g.2, home x = g.1
  once : ∀ g ∈ t.graphs, g.2.Nodup
  outlet : ∀ c ∈ L, (∃ h j, t.Inlet h j c.src) → c.outlet = 0
  inside : ∀ c ∈ L, home c.src = home c.dst
  placed : ∀ p ∈ t.holds, home p.2 = p.1
  top : ∀ c ∈ L, c.dst ≠ t.id

/-! ### The pass as a loop over the graphs -/

def over (gs : List (Nat × List Nat)) (L : List Conn) : List Conn := gs.foldl (fun L g => loop g.1 0 g.2 L) L

mutual
theorem prune_over : ∀ (t : Tree) (L : List Conn), prune t L = over t.graphs L
  | .node id inlets subs, L => by
    simp only [prune, Tree.graphs, over, List.foldl_cons]
    exact pruneAll_over subs _
theorem pruneAll_over : ∀ (ts : List Tree) (L : List Conn), pruneAll ts L = over (graphsAll ts) L
  | [], L => rfl
  | t :: ts, L => by
    simp only [pruneAll, graphsAll, over, List.foldl_append]
    rw [prune_over t L, pruneAll_over ts]
    rfl
end

/-- What holds of the connections and is kept by removing what leaves an unconnected inlet holds after the pass. -/
theorem loop_keeps {t : Tree} {P : List Conn → Prop} (hP : ∀ id i x L, t.Inlet id i x → P L → P (one id i x L))
    (id : Nat) (all : List Nat) (h : (id, all) ∈ t.graphs) :
    ∀ (xs : List Nat) (i : Nat) (L : List Conn), (∀ j, xs[j]? = all[i + j]?) → P L → P (loop id i xs L)
  | [], _, _, _, hL => hL
  | x :: xs, i, L, hx, hL => by
    refine loop_keeps hP id all h xs (i + 1) _ (fun j => ?_) (hP id i x L ⟨all, h, ?_⟩ hL)
    · have := hx (j + 1)
      rw [List.getElem?_cons_succ] at this
      rw [this]; congr 1; omega
    · have := hx 0
      simpa using this.symm

theorem over_keeps {t : Tree} {P : List Conn → Prop} (hP : ∀ id i x L, t.Inlet id i x → P L → P (one id i x L)) :
    ∀ (gs : List (Nat × List Nat)) (L : List Conn), (∀ g ∈ gs, g ∈ t.graphs) → P L → P (over gs L)
  | [], _, _, hL => hL
  | g :: gs, L, hg, hL => by
    rw [over, List.foldl_cons]
    refine over_keeps hP gs _ (fun g hg' => hg g (List.mem_cons_of_mem _ hg')) ?_
    exact loop_keeps hP g.1 g.2 (hg g (by simp)) g.2 0 L (by simp) hL

theorem prune_keeps {t : Tree} {P : List Conn → Prop} (hP : ∀ id i x L, t.Inlet id i x → P L → P (one id i x L))
    {L : List Conn} (h : P L) : P (prune t L) := by
  rw [prune_over]; exact over_keeps hP _ L (fun _ h => h) h

theorem one_sublist (id i x : Nat) (L : List Conn) : (one id i x L).Sublist L := by
  unfold one; split
  · exact List.filter_sublist
  · exact List.Sublist.refl L

/-- Nothing is added, and the connections that stay keep their order. -/
theorem prune_sublist (t : Tree) (L : List Conn) : (prune t L).Sublist L :=
  prune_keeps (P := fun L' => L'.Sublist L) (fun _ _ _ _ _ h => (one_sublist _ _ _ _).trans h) (List.Sublist.refl L)

/-! ### Nothing changes for any object -/

theorem sum_filter {M β : Type} [AddCommMonoid M] (p : β → Bool) (f : β → M) :
    ∀ l : List β, (∀ c ∈ l, p c = false → f c = 0) → ((l.filter p).map f).sum = (l.map f).sum
  | [], _ => rfl
  | c :: l, h => by
    have ih := sum_filter p f l fun c hc => h c (List.mem_cons_of_mem _ hc)
    cases hp : p c
    · rw [List.filter_cons_of_neg (by simp [hp]), ih, List.map_cons, List.sum_cons, h c (by simp) hp, zero_add]
    · rw [List.filter_cons_of_pos (by simp [hp]), List.map_cons, List.map_cons, List.sum_cons, List.sum_cons, ih]

theorem arrives_one {M : Type} [AddCommMonoid M] {id i x : Nat} {L : List Conn} {v : Nat → Nat → M}
    (h : into L id i = [] → v x 0 = 0) (o j : Nat) : arrives (one id i x L) v o j = arrives L v o j := by
  unfold one
  split
  · rename_i he
    unfold arrives
    rw [List.filter_filter]
    have : (fun c : Conn => (decide (c.dst = o) && decide (c.inlet = j)) && !(decide (c.src = x) && decide (c.outlet = 0)))
        = fun c : Conn => !(decide (c.src = x) && decide (c.outlet = 0)) && (decide (c.dst = o) && decide (c.inlet = j)) := by
      funext c; exact Bool.and_comm _ _
    rw [this, ← List.filter_filter]
    refine sum_filter _ _ _ fun c _ hc => ?_
    simp at hc
    rw [hc.1, hc.2, h he]
  · rfl

theorem arrives_none {M : Type} [AddCommMonoid M] {id i : Nat} {L : List Conn} {v : Nat → Nat → M}
    (h : into L id i = []) : arrives L v id i = 0 := by
  unfold into at h
  unfold arrives
  rw [h]; rfl

/-- What the objects give out fits the connections that are left exactly if it fits the original connections, and
then every object gets the same at every inlet. -/
theorem prune_plays {M : Type} [AddCommMonoid M] (t : Tree) (L : List Conn) (v : Nat → Nat → M) :
    (Plays t (prune t L) v ↔ Plays t L v) ∧
    (Plays t L v → ∀ o i, arrives (prune t L) v o i = arrives L v o i) := by
  have key : (Plays t (prune t L) v ↔ Plays t L v) ∧ (Plays t L v → ∀ o i, arrives (prune t L) v o i = arrives L v o i) := by
    refine prune_keeps (t := t) (L := L) (P := fun L' => (Plays t L' v ↔ Plays t L v) ∧
      (Plays t L v → ∀ o i, arrives L' v o i = arrives L v o i)) ?_ ⟨Iff.rfl, fun _ _ _ => rfl⟩
    intro id i x L' hx ⟨h1, h2⟩
    have step : (Plays t L' v ∨ Plays t (one id i x L') v) → ∀ o j, arrives (one id i x L') v o j = arrives L' v o j := by
      intro hp o j
      refine arrives_one (fun he => ?_) o j
      rcases hp with hp | hp
      · rw [hp id i x hx, arrives_none he]
      · rw [hp id i x hx, arrives_none]
        have := (one_sublist id i x L').filter fun c => decide (c.dst = id) && decide (c.inlet = i)
        unfold into at he ⊢
        rw [he] at this
        exact List.sublist_nil.1 this
    refine ⟨?_, fun hp o j => ?_⟩
    · rw [← h1]
      constructor
      · intro hp a b c hc
        rw [hp a b c hc, step (.inr hp)]
      · intro hp a b c hc
        rw [hp a b c hc, step (.inl hp)]
    · rw [step (.inl (h1.2 hp)), h2 hp]
  exact key

/-! ### Exactly the connections from inlets that nothing reaches are gone -/

mutual
theorem holds_order : ∀ (t : Tree) (p : Nat × Nat), p ∈ t.holds → [p.1, p.2].Sublist (t.graphs.map Prod.fst)
  | .node id inlets subs, p, h => by
    simp only [Tree.holds, List.mem_append] at h
    simp only [Tree.graphs, List.map_cons]
    rcases h with h | h
    · obtain ⟨s, hs, rfl⟩ := List.mem_map.1 h
      exact List.Sublist.cons_cons _ (List.singleton_sublist.2 (id_mem subs s hs))
    · exact (holdsAll_order subs p h).cons _
theorem holdsAll_order : ∀ (ts : List Tree) (p : Nat × Nat), p ∈ holdsAll ts → [p.1, p.2].Sublist ((graphsAll ts).map Prod.fst)
  | [], _, h => by simp [holdsAll] at h
  | t :: ts, p, h => by
    simp only [holdsAll, List.mem_append] at h
    simp only [graphsAll, List.map_append]
    rcases h with h | h
    · exact (holds_order t p h).trans (List.sublist_append_left _ _)
    · exact (holdsAll_order ts p h).trans (List.sublist_append_right _ _)
theorem id_mem : ∀ (ts : List Tree) (s : Tree), s ∈ ts → s.id ∈ (graphsAll ts).map Prod.fst
  | [], _, h => by simp at h
  | t :: ts, s, h => by
    simp only [graphsAll, List.map_append, List.mem_append]
    rcases List.mem_cons.1 h with rfl | h
    · left
      cases s with
      | node id inlets subs => simp [Tree.graphs, Tree.id]
    · exact .inr (id_mem ts s h)
end

mutual
/-- Every graph but the outermost is in a graph. -/
theorem in_graph : ∀ (t : Tree) (g : Nat × List Nat), g ∈ t.graphs → g.1 = t.id ∨ ∃ p, (p, g.1) ∈ t.holds
  | .node id inlets subs, g, h => by
    simp only [Tree.graphs, List.mem_cons] at h
    rcases h with rfl | h
    · exact .inl rfl
    · rcases in_graphAll subs g h with ⟨s, hs, he⟩ | ⟨p, hp⟩
      · exact .inr ⟨id, by simp only [Tree.holds, List.mem_append, List.mem_map]; exact .inl ⟨s, hs, by rw [he]⟩⟩
      · exact .inr ⟨p, by simp only [Tree.holds, List.mem_append]; exact .inr hp⟩
theorem in_graphAll : ∀ (ts : List Tree) (g : Nat × List Nat), g ∈ graphsAll ts →
    (∃ s ∈ ts, g.1 = s.id) ∨ ∃ p, (p, g.1) ∈ holdsAll ts
  | [], _, h => by simp [graphsAll] at h
  | t :: ts, g, h => by
    simp only [graphsAll, List.mem_append] at h
    rcases h with h | h
    · rcases in_graph t g h with he | ⟨p, hp⟩
      · exact .inl ⟨t, by simp, he⟩
      · exact .inr ⟨p, by simp only [holdsAll, List.mem_append]; exact .inl hp⟩
    · rcases in_graphAll ts g h with ⟨s, hs, he⟩ | ⟨p, hp⟩
      · exact .inl ⟨s, List.mem_cons_of_mem _ hs, he⟩
      · exact .inr ⟨p, by simp only [holdsAll, List.mem_append]; exact .inr hp⟩
end

theorem before {a b : List Nat} {p q : Nat} (h : [p, q].Sublist (a ++ q :: b)) (hn : (a ++ q :: b).Nodup) : p ∈ a := by
  have hq : q ∉ b := by
    rw [List.nodup_append] at hn
    exact (List.nodup_cons.1 hn.2.1).1
  obtain ⟨l₁, l₂, he, h1, h2⟩ := List.sublist_append_iff.1 h
  match l₁, he with
  | [], he =>
    rw [List.nil_append] at he
    subst he
    exfalso
    cases h2 with
    | cons _ h => exact hq (h.subset (by simp))
    | cons_cons _ h => exact hq (h.subset (by simp))
  | r :: l₁, he =>
    have : p = r := by simpa using (List.cons.inj (by simpa using he)).1
    subst this
    exact h1.subset (by simp)

variable {t : Tree} {L : List Conn} {home : Nat → Nat}

/-- What reaches a graph from an inlet comes from the graph around, which is treated before. -/
theorem Formed.earlier (hf : Formed t L home) {a b : List (Nat × List Nat)} {g : Nat × List Nat}
    (hg : t.graphs = a ++ g :: b) {c : Conn} (hc : c ∈ L) (hd : c.dst = g.1) {h j : Nat} (hi : t.Inlet h j c.src) :
    h ∈ a.map Prod.fst := by
  have hmem : g ∈ t.graphs := by rw [hg]; simp
  rcases in_graph t g hmem with he | ⟨p, hp⟩
  · exact absurd (hd.trans he) (hf.top c hc)
  · obtain ⟨xs, hx, hxj⟩ := hi
    have h1 := hf.inlets _ hx c.src (List.mem_of_getElem? hxj)
    have h2 := hf.inside c hc
    rw [h1, hd, hf.placed _ hp] at h2
    have h2 : h = p := h2
    subst h2
    have ho := holds_order t _ hp
    have hn := hf.ids
    rw [hg, List.map_append, List.map_cons] at ho hn
    exact before ho hn

theorem Formed.unique (hf : Formed t L home) {x h j h' j' : Nat} (h1 : t.Inlet h j x) (h2 : t.Inlet h' j' x) :
    h = h' ∧ j = j' := by
  obtain ⟨xs, hx, hj⟩ := h1
  obtain ⟨ys, hy, hj'⟩ := h2
  have e1 := hf.inlets _ hx x (List.mem_of_getElem? hj)
  have e2 := hf.inlets _ hy x (List.mem_of_getElem? hj')
  have : h = h' := e1.symm.trans e2
  subst this
  have : xs = ys := by
    exact (Prod.mk.inj (List.inj_on_of_nodup_map hf.ids hx hy rfl)).2
  subst this
  refine ⟨rfl, ?_⟩
  have := hf.once _ hx
  exact (List.getElem?_inj (by
    rcases Nat.lt_or_ge j xs.length with h | h
    · exact h
    · rw [List.getElem?_eq_none h] at hj; cases hj) this).1 (hj.trans hj'.symm)

/-- A connection from something that is not an inlet, or from an inlet that something reaches, stays. -/
theorem Formed.stays (hf : Formed t L home) {c : Conn} (hc : c ∈ L)
    (h : (∀ g j, ¬ t.Inlet g j c.src) ∨ Fed t L c.src) : c ∈ prune t L := by
  suffices H : ∀ c ∈ L, ((∀ g j, ¬ t.Inlet g j c.src) ∨ Fed t L c.src) → c ∈ prune t L from H c hc h
  refine prune_keeps (t := t) (L := L)
    (P := fun L' => ∀ c ∈ L, ((∀ g j, ¬ t.Inlet g j c.src) ∨ Fed t L c.src) → c ∈ L') ?_ (fun c h _ => h)
  intro id i x L' hx hL c hc h
  unfold one
  split
  · rename_i he
    refine List.mem_filter.2 ⟨hL c hc h, ?_⟩
    by_contra hn
    have hn : c.src = x ∧ c.outlet = 0 := by simpa using hn
    rcases h with h | h
    · exact h id i (hn.1 ▸ hx)
    · have : ∃ c' ∈ L, c'.dst = id ∧ c'.inlet = i ∧ ((∀ g j, ¬ t.Inlet g j c'.src) ∨ Fed t L c'.src) := by
        cases h with
        | direct id' i' _ c' hi hc' hd hj ha =>
          obtain ⟨rfl, rfl⟩ := hf.unique hi (hn.1 ▸ hx)
          exact ⟨c', hc', hd, hj, .inl ha⟩
        | through id' i' _ c' hi hc' hd hj ha =>
          obtain ⟨rfl, rfl⟩ := hf.unique hi (hn.1 ▸ hx)
          exact ⟨c', hc', hd, hj, .inr ha⟩
      obtain ⟨c', hc', hd, hj, ha⟩ := this
      have hm : c' ∈ into L' id i := by
        unfold into
        exact List.mem_filter.2 ⟨hL c' hc' ha, by simp [hd, hj]⟩
      rw [he] at hm
      cases hm
  · exact hL c hc h

theorem into_one {id i x o : Nat} {L : List Conn} (h : ∀ c ∈ L, c.dst = o → c.src ≠ x) (j : Nat) :
    into (one id i x L) o j = into L o j := by
  unfold one
  split
  · unfold into
    rw [List.filter_filter]
    refine List.filter_congr fun c hc => ?_
    by_cases hd : c.dst = o
    · simp [h c hc hd]
    · simp [hd]
  · rfl

theorem loop_sublist (id : Nat) : ∀ (xs : List Nat) (i : Nat) (L : List Conn), (loop id i xs L).Sublist L
  | [], _, L => List.Sublist.refl L
  | x :: xs, i, L => (loop_sublist id xs (i + 1) _).trans (one_sublist id i x L)

theorem loop_into {id o : Nat} : ∀ (xs : List Nat) (i : Nat) (L : List Conn),
    (∀ c ∈ L, c.dst = o → c.src ∉ xs) → ∀ j, into (loop id i xs L) o j = into L o j
  | [], _, _, _, _ => rfl
  | x :: xs, i, L, h, j => by
    rw [loop, loop_into xs (i + 1) _ (fun c hc hd hx =>
      h c ((one_sublist id i x L).subset hc) hd (List.mem_cons_of_mem _ hx)) j]
    exact into_one (fun c hc hd he => h c hc hd (by simp [he])) j

theorem over_into {o : Nat} : ∀ (gs : List (Nat × List Nat)) (L : List Conn),
    (∀ c ∈ L, c.dst = o → ∀ g ∈ gs, c.src ∉ g.2) → ∀ j, into (over gs L) o j = into L o j
  | [], _, _, _ => rfl
  | g :: gs, L, h, j => by
    have := over_into (o := o) gs (loop g.1 0 g.2 L) (fun c hc hd g' hg =>
      h c ((loop_sublist _ _ _ _).subset hc) hd g' (List.mem_cons_of_mem _ hg)) j
    rw [over, List.foldl_cons]
    exact this.trans (loop_into g.2 0 L (fun c hc hd => h c hc hd g (by simp)) j)

theorem over_sublist : ∀ (gs : List (Nat × List Nat)) (L : List Conn), (over gs L).Sublist L
  | [], L => List.Sublist.refl L
  | g :: gs, L => (over_sublist gs _).trans (loop_sublist g.1 g.2 0 L)

theorem loop_clears {id x : Nat} : ∀ (xs : List Nat) (i k : Nat) (L : List Conn),
    (∀ c ∈ L, c.dst = id → c.src ∉ xs) → xs[k]? = some x → into L id (i + k) = [] →
    ∀ c ∈ loop id i xs L, ¬ (c.src = x ∧ c.outlet = 0)
  | [], _, _, _, _, h, _ => by simp at h
  | y :: xs, i, 0, L, h, hk, he => by
    intro c hc
    have hc' := (loop_sublist id xs (i + 1) _).subset hc
    have hy : y = x := by simpa using hk
    subst hy
    unfold one at hc'
    rw [if_pos (by simpa using he)] at hc'
    have := (List.mem_filter.1 hc').2
    rintro ⟨h1, h2⟩
    simp [h1, h2] at this
  | y :: xs, i, k + 1, L, h, hk, he => by
    refine loop_clears xs (i + 1) k _ (fun c hc hd hx =>
      h c ((one_sublist id i y L).subset hc) hd (List.mem_cons_of_mem _ hx)) (by simpa using hk) ?_
    rw [into_one (fun c hc hd he => h c hc hd (by simp [he]))]
    rw [← he]; congr 1; omega

/-- An inlet that nothing is connected to afterwards has no connections left inside. -/
theorem Formed.cleared (hf : Formed t L home) {id i x : Nat} (hx : t.Inlet id i x)
    (he : ∀ c ∈ prune t L, c.dst = id → c.inlet ≠ i) : ∀ c ∈ prune t L, c.src ≠ x := by
  intro c hc hs
  obtain ⟨xs, hm, hi⟩ := hx
  obtain ⟨a, b, hg⟩ := List.append_of_mem hm
  have hLf : prune t L = over b (loop id 0 xs (over a L)) := by
    rw [prune_over, hg, over, List.foldl_append]; rfl
  have hno : ∀ c ∈ L, c.dst = id → ∀ g ∈ (id, xs) :: b, c.src ∉ g.2 := by
    intro c hc hd g hgm hsrc
    obtain ⟨j, hj⟩ := List.getElem?_of_mem hsrc
    have hgt : g ∈ t.graphs := by rw [hg]; exact List.mem_append_right _ hgm
    have hb := hf.earlier hg hc hd (h := g.1) ⟨g.2, hgt, hj⟩
    have hn := hf.ids
    rw [hg, List.map_append, List.nodup_append] at hn
    exact hn.2.2 _ hb _ (List.mem_map_of_mem hgm) rfl
  have hsub := over_sublist a L
  have hinto : into (over a L) id i = [] := by
    have h1 : into (prune t L) id i = [] := by
      unfold into
      exact List.filter_eq_nil_iff.2 fun c hc hp => by
        have hp : c.dst = id ∧ c.inlet = i := by simpa using hp
        exact he c hc hp.1 hp.2
    rw [hLf] at h1
    have h2 : into (over ((id, xs) :: b) (over a L)) id i = into (over a L) id i :=
      over_into _ _ (fun c hc hd => hno c (hsub.subset hc) hd) i
    rw [← h2, over, List.foldl_cons]
    exact h1
  have hc1 : c ∈ loop id 0 xs (over a L) := (over_sublist b _).subset (hLf ▸ hc)
  refine loop_clears xs 0 i _ (fun c hc hd => hno c (hsub.subset hc) hd (id, xs) (by simp)) hi (by simpa using hinto)
    c hc1 ⟨hs, ?_⟩
  exact hf.outlet c ((prune_sublist t L).subset hc) ⟨id, i, hs ▸ ⟨xs, hm, hi⟩⟩

/-- What is left leaves something that is not an inlet, or an inlet that something reaches. -/
theorem Formed.reached (hf : Formed t L home) : ∀ (n : Nat) (a b : List (Nat × List Nat)) (g : Nat × List Nat),
    a.length = n → t.graphs = a ++ g :: b → ∀ c ∈ prune t L, ∀ i, t.Inlet g.1 i c.src → Fed t L c.src := by
  intro n
  induction n using Nat.strongRecOn with
  | ind n ih =>
    intro a b g ha hg c hc i hi
    have : ∃ c' ∈ prune t L, c'.dst = g.1 ∧ c'.inlet = i := by
      by_contra hno
      exact hf.cleared hi (fun c' h' hd hj => hno ⟨c', h', hd, hj⟩) c hc rfl
    obtain ⟨c', hc', hd, hj⟩ := this
    have hL := (prune_sublist t L).subset hc'
    by_cases hx : ∃ h j, t.Inlet h j c'.src
    · obtain ⟨h, j, hx⟩ := hx
      obtain ⟨g', hg', rfl⟩ := List.mem_map.1 (hf.earlier hg hL hd hx)
      obtain ⟨a₁, a₂, rfl⟩ := List.append_of_mem hg'
      refine .through _ i _ c' hi hL hd hj (ih a₁.length ?_ a₁ (a₂ ++ g :: b) g' rfl (by rw [hg]; simp) c' hc' j hx)
      rw [← ha]; simp
    · exact .direct _ i _ c' hi hL hd hj fun h j hx' => hx ⟨h, j, hx'⟩

/-- C89: after the pass exactly those connections are gone that leave an inlet of a subgraph that nothing reaches, not
even through the inlets of the graphs around; the others keep their order; and whatever the objects give out, it fits
the connections left exactly if it fits the original ones, every inlet of every object getting the same. -/
theorem pruned_right {M : Type} [AddCommMonoid M] (hf : Formed t L home) :
    (prune t L).Sublist L ∧
    (∀ c, c ∈ prune t L ↔ c ∈ L ∧ ((∀ g j, ¬ t.Inlet g j c.src) ∨ Fed t L c.src)) ∧
    ∀ v : Nat → Nat → M, (Plays t (prune t L) v ↔ Plays t L v) ∧
      (Plays t L v → ∀ o i, arrives (prune t L) v o i = arrives L v o i) := by
  refine ⟨prune_sublist t L, fun c => ⟨fun hc => ⟨(prune_sublist t L).subset hc, ?_⟩, fun h => hf.stays h.1 h.2⟩,
    prune_plays t L⟩
  by_cases hx : ∃ g j, t.Inlet g j c.src
  · obtain ⟨g, j, hx⟩ := hx
    obtain ⟨xs, hm, hj⟩ := hx
    obtain ⟨a, b, hg⟩ := List.append_of_mem hm
    exact .inr (hf.reached a.length a b (g, xs) rfl hg c hc j ⟨xs, hm, hj⟩)
  · exact .inl fun g j h => hx ⟨g, j, h⟩

/-- An object that is connected to unreached inlets only is afterwards as if it were not connected: `[osc~ 440]` with the
silent `[inlet~]` of its subpatch as its frequency plays 440 Hz, where Pure Data plays 0 Hz (F125). -/
theorem Formed.forgotten (hf : Formed t L home) {o i : Nat}
    (h : ∀ c ∈ L, c.dst = o → c.inlet = i → (∃ g j, t.Inlet g j c.src) ∧ ¬ Fed t L c.src) :
    ∀ c ∈ prune t L, c.dst = o → c.inlet ≠ i := by
  intro c hc hd hj
  have hL := (prune_sublist t L).subset hc
  obtain ⟨hi, hn⟩ := h c hL hd hj
  rcases ((pruned_right (M := Nat) hf).2.1 c).1 hc with ⟨-, h | h⟩
  · obtain ⟨g, j, hx⟩ := hi
    exact h g j hx
  · exact hn h

/-! ### An example

Graph 0 holds subgraph 1 (inlets 10, 11) and object 2, connected to the second inlet of 1.  Graph 1 holds subgraph 3
(inlets 30, 31) and object 12; both its inlets are connected to both inlets of 3 and to 12. -/

namespace Example

def tree : Tree := .node 0 [] [.node 1 [10, 11] [.node 3 [30, 31] []]]

def conns : List Conn := [⟨2, 0, 1, 1⟩, ⟨10, 0, 3, 0⟩, ⟨10, 0, 12, 0⟩, ⟨11, 0, 3, 1⟩, ⟨11, 0, 12, 0⟩, ⟨30, 0, 32, 0⟩,
  ⟨31, 0, 32, 0⟩, ⟨32, 0, 33, 0⟩]

def inside (x : Nat) : Nat := if x = 0 then 100 else if x < 3 then 0 else if x = 3 then 1 else if x < 30 then 1 else 3

theorem formed : Formed tree conns inside where
  ids := by decide
  inlets := by decide
  once := by decide
  outlet := by
    have : ∀ c ∈ conns, c.outlet = 0 := by decide
    exact fun c hc _ => this c hc
  inside := by decide
  placed := by decide
  top := by decide

theorem pruned : prune tree conns = [⟨2, 0, 1, 1⟩, ⟨11, 0, 3, 1⟩, ⟨11, 0, 12, 0⟩, ⟨31, 0, 32, 0⟩, ⟨32, 0, 33, 0⟩] := by
  decide

/-- Object 2 reaches inlet 31, through inlet 11. -/
theorem fed : Fed tree conns 31 :=
  .through 3 1 31 ⟨11, 0, 3, 1⟩ ⟨[30, 31], by decide, rfl⟩ (by decide) rfl rfl
    (.direct 1 1 11 ⟨2, 0, 1, 1⟩ ⟨[10, 11], by decide, rfl⟩ (by decide) rfl rfl (by
      intro h j ⟨xs, hm, hj⟩
      have : ∀ g ∈ tree.graphs, 2 ∉ g.2 := by decide
      exact this _ hm (List.mem_of_getElem? hj)))

end Example

end Verif.Prune
