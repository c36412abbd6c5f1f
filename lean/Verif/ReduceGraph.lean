import Verif.Reduce
import Mathlib.Data.Multiset.Filter
import Mathlib.Data.Multiset.AddSub
/-!
What the graph operations of `Verif.Reduce` do to the connections of the patch.
-/
namespace Verif.Reduce

variable {α : Type}

/-- `c` starts at outlet `j` of `p` -/
def Conn.from (c : Conn) (p j : Nat) : Prop := c.src = p ∧ c.outlet = j
/-- `c` ends at inlet `i` of `d` -/
def Conn.into (c : Conn) (d i : Nat) : Prop := c.dst = d ∧ c.inlet = i

instance (p j : Nat) : DecidablePred (fun c : Conn => c.from p j) := fun c => inferInstanceAs (Decidable (c.src = p ∧ c.outlet = j))
instance (p j : Nat) : DecidablePred (fun c : Conn => c.into p j) := fun c => inferInstanceAs (Decidable (c.dst = p ∧ c.inlet = j))

/-- the lists at the outlets and at the inlets hold exactly the connections `M` -/
structure Wired (g : Graph α) (M : Multiset Conn) : Prop where
  outs : ∀ p j, (g.outs p j : Multiset Conn) = M.filter (·.from p j)
  ins : ∀ d i, (g.ins d i : Multiset Conn) = M.filter (·.into d i)

theorem Wired.mem_outs {g : Graph α} {M : Multiset Conn} (w : Wired g M) {p j : Nat} {c : Conn} :
    c ∈ g.outs p j ↔ c ∈ M ∧ c.src = p ∧ c.outlet = j := by
  rw [← Multiset.mem_coe, w.outs, Multiset.mem_filter]; rfl

theorem Wired.mem_ins {g : Graph α} {M : Multiset Conn} (w : Wired g M) {p j : Nat} {c : Conn} :
    c ∈ g.ins p j ↔ c ∈ M ∧ c.dst = p ∧ c.inlet = j := by
  rw [← Multiset.mem_coe, w.ins, Multiset.mem_filter]; rfl

/-- the same objects -/
structure SameObjs (g g' : Graph α) : Prop where
  ids : g'.ids = g.ids
  kind : g'.kind = g.kind

theorem SameObjs.refl {g : Graph α} : SameObjs g g := ⟨rfl, rfl⟩
theorem SameObjs.trans {g g1 g2 : Graph α} (a : SameObjs g g1) (b : SameObjs g1 g2) : SameObjs g g2 :=
  ⟨b.ids.trans a.ids, b.kind.trans a.kind⟩

theorem splice_ok {c : Conn} (ns : List Conn) : ∀ {l : List Conn}, c ∈ l →
    ∃ l1 l2, l = l1 ++ c :: l2 ∧ c ∉ l1 ∧ splice c ns l = some (l1 ++ ns ++ l2)
  | [], h => by simp at h
  | d :: l, h => by
    by_cases hd : d = c
    · subst hd; exact ⟨[], l, rfl, by simp, by simp [splice]⟩
    · have hc : c ∈ l := by
        rcases List.mem_cons.1 h with h | h
        · exact absurd h.symm hd
        · exact h
      obtain ⟨l1, l2, e1, e2, e3⟩ := splice_ok ns hc
      refine ⟨d :: l1, l2, by rw [e1]; rfl, ?_, ?_⟩
      · simp [e2]; exact fun e => hd e.symm
      · simp [splice, hd, e3]

theorem foldl_addIn (ns : List Conn) : ∀ (g : Graph α),
    SameObjs g (ns.foldl Graph.addIn g) ∧ (ns.foldl Graph.addIn g).outs = g.outs ∧
    ∀ d i, (ns.foldl Graph.addIn g).ins d i = g.ins d i ++ ns.filter (·.into d i) := by
  induction ns with
  | nil => intro g; simp [SameObjs.refl]
  | cons n ns ih =>
    intro g
    obtain ⟨a, b, c⟩ := ih (g.addIn n)
    refine ⟨SameObjs.trans (g1 := g.addIn n) ⟨rfl, rfl⟩ a, b, fun d i => ?_⟩
    rw [List.foldl_cons, c, List.filter_cons]
    by_cases h : n.into d i
    · obtain ⟨rfl, rfl⟩ := h
      simp [Graph.addIn, set2, Conn.into]
    · have h' : ¬ (d = n.dst ∧ i = n.inlet) := fun ⟨x, y⟩ => h ⟨x.symm, y.symm⟩
      simp [Graph.addIn, set2, h, h']

theorem foldl_addOut (ns : List Conn) : ∀ (g : Graph α),
    SameObjs g (ns.foldl Graph.addOut g) ∧ (ns.foldl Graph.addOut g).ins = g.ins ∧
    ∀ d i, (ns.foldl Graph.addOut g).outs d i = g.outs d i ++ ns.filter (·.from d i) := by
  induction ns with
  | nil => intro g; simp [SameObjs.refl]
  | cons n ns ih =>
    intro g
    obtain ⟨a, b, c⟩ := ih (g.addOut n)
    refine ⟨SameObjs.trans (g1 := g.addOut n) ⟨rfl, rfl⟩ a, b, fun d i => ?_⟩
    rw [List.foldl_cons, c, List.filter_cons]
    by_cases h : n.from d i
    · obtain ⟨rfl, rfl⟩ := h
      simp [Graph.addOut, set2, Conn.from]
    · have h' : ¬ (d = n.src ∧ i = n.outlet) := fun ⟨x, y⟩ => h ⟨x.symm, y.symm⟩
      simp [Graph.addOut, set2, h, h']

theorem coe_splice (l1 l2 ns : List Conn) (c : Conn) :
    ((l1 ++ ns ++ l2 : List Conn) : Multiset Conn) = ((l1 ++ c :: l2 : List Conn) : Multiset Conn).erase c + (ns : Multiset Conn) := by
  have : ((l1 ++ c :: l2 : List Conn) : Multiset Conn) = c ::ₘ ((l1 ++ l2 : List Conn) : Multiset Conn) := by
    rw [Multiset.cons_coe, Multiset.coe_eq_coe]; exact List.perm_middle
  rw [this, Multiset.erase_cons_head, Multiset.coe_add, Multiset.coe_eq_coe, List.append_assoc, List.append_assoc]
  exact List.Perm.append_left _ List.perm_append_comm

theorem filter_erase_pos {M : Multiset Conn} {p : Conn → Prop} [DecidablePred p] {c : Conn} (h : p c) :
    (M.erase c).filter p = (M.filter p).erase c := by
  by_cases hc : c ∈ M
  · obtain ⟨N, rfl⟩ := Multiset.exists_cons_of_mem hc
    simp [h]
  · rw [Multiset.erase_of_notMem hc, Multiset.erase_of_notMem]
    exact fun hm => hc (Multiset.mem_of_mem_filter hm)

theorem filter_erase_neg {M : Multiset Conn} {p : Conn → Prop} [DecidablePred p] {c : Conn} (h : ¬ p c) :
    (M.erase c).filter p = M.filter p := by
  by_cases hc : c ∈ M
  · obtain ⟨N, rfl⟩ := Multiset.exists_cons_of_mem hc
    simp [h]
  · rw [Multiset.erase_of_notMem hc]

/-- an update that keeps the start of the connection -/
theorem update_src {g : Graph α} {M : Multiset Conn} (w : Wired g M) {c : Conn} (hc : c ∈ M) {ns : List Conn} (hne : ns ≠ [])
    (hs : ∀ n ∈ ns, n.from c.src c.outlet) :
    ∃ g' l1 l2, g.update (some c, ns) = some g' ∧ Wired g' (M.erase c + ns) ∧ SameObjs g g' ∧
      g.outs c.src c.outlet = l1 ++ c :: l2 ∧ c ∉ l1 ∧ g'.outs = set2 g.outs c.src c.outlet (l1 ++ ns ++ l2) := by
  obtain ⟨n, ns', rfl⟩ := List.exists_cons_of_ne_nil hne
  obtain ⟨l1, l2, e1, e2, e3⟩ := splice_ok (n :: ns') (w.mem_outs.2 ⟨hc, rfl, rfl⟩)
  have hin : c ∈ g.ins c.dst c.inlet := w.mem_ins.2 ⟨hc, rfl, rfl⟩
  have hall : (n :: ns').all (fun x => decide (x.src = c.src)) = true := by
    rw [List.all_eq_true]; intro x hx; simpa using (hs x hx).1
  set ns := n :: ns' with hns
  refine ⟨ns.foldl Graph.addIn { g with outs := set2 g.outs c.src c.outlet (l1 ++ ns ++ l2)
                                        ins := set2 g.ins c.dst c.inlet ((g.ins c.dst c.inlet).erase c) },
    l1, l2, ?_, ?_, ?_, e1, e2, ?_⟩
  · rw [hns, Graph.update, ← hns, if_pos hall]
    simp only [Graph.replaceOut, e3, Graph.removeIn, remove, if_pos hin, bind, Option.bind, pure]
  · obtain ⟨-, b, d⟩ := foldl_addIn ns { g with outs := set2 g.outs c.src c.outlet (l1 ++ ns ++ l2)
                                                ins := set2 g.ins c.dst c.inlet ((g.ins c.dst c.inlet).erase c) }
    constructor
    · intro p j
      rw [b]
      by_cases h : p = c.src ∧ j = c.outlet
      · obtain ⟨rfl, rfl⟩ := h
        simp only [set2, and_self, if_true]
        rw [coe_splice _ _ _ c, ← e1, w.outs, Multiset.filter_add, filter_erase_pos ⟨rfl, rfl⟩,
          (Multiset.filter_eq_self (s := (ns : Multiset Conn))).2 (fun x hx => hs x hx)]
      · simp only [set2, if_neg h]
        rw [w.outs, Multiset.filter_add, filter_erase_neg (fun ⟨x, y⟩ => h ⟨x.symm, y.symm⟩), 
          (Multiset.filter_eq_nil (s := (ns : Multiset Conn))).2
            (fun x hx hf => h ⟨hf.1.symm.trans (hs x hx).1, hf.2.symm.trans (hs x hx).2⟩), Multiset.add_zero]
    · intro p j
      rw [d]
      rw [← Multiset.coe_add, ← Multiset.filter_coe, Multiset.filter_add]
      congr 1
      by_cases h : p = c.dst ∧ j = c.inlet
      · obtain ⟨rfl, rfl⟩ := h
        simp only [set2, and_self, if_true]
        rw [filter_erase_pos ⟨rfl, rfl⟩, ← w.ins, Multiset.coe_erase]
      · simp only [set2, if_neg h]
        rw [filter_erase_neg (fun ⟨x, y⟩ => h ⟨x.symm, y.symm⟩), w.ins]
  · obtain ⟨a, -, -⟩ := foldl_addIn ns { g with outs := set2 g.outs c.src c.outlet (l1 ++ ns ++ l2)
                                                ins := set2 g.ins c.dst c.inlet ((g.ins c.dst c.inlet).erase c) }
    exact ⟨a.ids, a.kind⟩
  · exact (foldl_addIn ns _).2.1

/-- an update that moves one connection to another start -/
theorem update_dst {g : Graph α} {M : Multiset Conn} (w : Wired g M) {c n : Conn} (hc : c ∈ M) (hl : c.src ≠ c.dst)
    (hn : n.src ≠ c.src) (hd : n.into c.dst c.inlet) :
    ∃ g', g.update (some c, [n]) = some g' ∧ Wired g' (M.erase c + {n}) ∧ SameObjs g g' ∧
      g'.outs = fun p j => if n.from p j then g.outs p j ++ [n] else if c.from p j then (g.outs p j).erase c else g.outs p j := by
  have hin : c ∈ g.ins c.dst c.inlet := w.mem_ins.2 ⟨hc, rfl, rfl⟩
  have hout : c ∈ g.outs c.src c.outlet := w.mem_outs.2 ⟨hc, rfl, rfl⟩
  refine ⟨Graph.addOut { g with ins := set2 g.ins c.dst c.inlet ((g.ins c.dst c.inlet).erase c ++ [n])
                                outs := set2 g.outs c.src c.outlet ((g.outs c.src c.outlet).erase c) } n, ?_, ?_, ⟨rfl, rfl⟩, ?_⟩
  · simp only [Graph.update, List.all_cons, List.all_nil, Bool.and_true, hn, hl, decide_false, Bool.false_eq_true,
      if_false, hd.1, decide_true, if_true, Graph.replaceIn, remove, if_pos hin, Graph.removeOut, if_pos hout, bind, Option.bind,
      List.foldl_cons, List.foldl_nil, pure]
  · constructor
    · intro p j
      rw [Multiset.filter_add]
      by_cases h : n.from p j
      · obtain ⟨rfl, rfl⟩ := h
        have h2 : ¬ c.from n.src n.outlet := fun h => hn h.1.symm
        rw [filter_erase_neg h2, ← w.outs, Multiset.filter_singleton, if_pos ⟨rfl, rfl⟩, ← Multiset.coe_singleton,
          Multiset.coe_add]
        have h3 : ¬ (n.src = c.src ∧ n.outlet = c.outlet) := fun h => hn h.1
        simp [Graph.addOut, set2, h3]
      · have h' : ¬ (p = n.src ∧ j = n.outlet) := fun ⟨x, y⟩ => h ⟨x.symm, y.symm⟩
        rw [Multiset.filter_singleton, if_neg h, Multiset.empty_eq_zero, Multiset.add_zero]
        by_cases h2 : c.from p j
        · obtain ⟨rfl, rfl⟩ := h2
          rw [filter_erase_pos ⟨rfl, rfl⟩, ← w.outs, Multiset.coe_erase]
          simp [Graph.addOut, set2, h']
        · have h3 : ¬ (p = c.src ∧ j = c.outlet) := fun ⟨x, y⟩ => h2 ⟨x.symm, y.symm⟩
          rw [filter_erase_neg h2, ← w.outs]
          simp [Graph.addOut, set2, h', h3]
    · intro p j
      rw [Multiset.filter_add]
      by_cases h2 : c.into p j
      · obtain ⟨rfl, rfl⟩ := h2
        rw [filter_erase_pos ⟨rfl, rfl⟩, ← w.ins, Multiset.coe_erase, Multiset.filter_singleton, if_pos hd,
          ← Multiset.coe_singleton, Multiset.coe_add]
        simp [Graph.addOut, set2]
      · have h3 : ¬ (p = c.dst ∧ j = c.inlet) := fun ⟨x, y⟩ => h2 ⟨x.symm, y.symm⟩
        have h4 : ¬ n.into p j := fun ⟨x, y⟩ => h2 ⟨hd.1.symm.trans x, hd.2.symm.trans y⟩
        rw [filter_erase_neg h2, ← w.ins, Multiset.filter_singleton, if_neg h4, Multiset.empty_eq_zero, Multiset.add_zero]
        simp [Graph.addOut, set2, h3]
  · funext p j
    by_cases h : n.from p j
    · rw [if_pos h]
      obtain ⟨rfl, rfl⟩ := h
      have h3 : ¬ (n.src = c.src ∧ n.outlet = c.outlet) := fun h => hn h.1
      simp [Graph.addOut, set2, h3]
    · have h' : ¬ (p = n.src ∧ j = n.outlet) := fun ⟨x, y⟩ => h ⟨x.symm, y.symm⟩
      rw [if_neg h]
      by_cases h2 : c.from p j
      · rw [if_pos h2]
        obtain ⟨rfl, rfl⟩ := h2
        simp [Graph.addOut, set2, h']
      · have h3 : ¬ (p = c.src ∧ j = c.outlet) := fun ⟨x, y⟩ => h2 ⟨x.symm, y.symm⟩
        simp [Graph.addOut, set2, h', h3, if_neg h2]

/-- a new connection -/
theorem connect_ok {g : Graph α} {M : Multiset Conn} (w : Wired g M) (n : Conn) :
    Wired (g.connect n) (M + {n}) ∧ SameObjs g (g.connect n) ∧
      (g.connect n).outs = fun p j => if n.from p j then g.outs p j ++ [n] else g.outs p j := by
  refine ⟨⟨?_, ?_⟩, ⟨rfl, rfl⟩, ?_⟩
  · intro p j
    rw [Multiset.filter_add, ← w.outs, Multiset.filter_singleton]
    by_cases h : n.from p j
    · obtain ⟨rfl, rfl⟩ := h
      rw [if_pos ⟨rfl, rfl⟩, ← Multiset.coe_singleton, Multiset.coe_add]
      simp [Graph.connect, Graph.addOut, Graph.addIn, set2]
    · have h' : ¬ (p = n.src ∧ j = n.outlet) := fun ⟨x, y⟩ => h ⟨x.symm, y.symm⟩
      rw [if_neg h, Multiset.empty_eq_zero, Multiset.add_zero]
      simp [Graph.connect, Graph.addOut, Graph.addIn, set2, h']
  · intro p j
    rw [Multiset.filter_add, ← w.ins, Multiset.filter_singleton]
    by_cases h : n.into p j
    · obtain ⟨rfl, rfl⟩ := h
      rw [if_pos ⟨rfl, rfl⟩, ← Multiset.coe_singleton, Multiset.coe_add]
      simp [Graph.connect, Graph.addOut, Graph.addIn, set2]
    · have h' : ¬ (p = n.dst ∧ j = n.inlet) := fun ⟨x, y⟩ => h ⟨x.symm, y.symm⟩
      rw [if_neg h, Multiset.empty_eq_zero, Multiset.add_zero]
      simp [Graph.connect, Graph.addOut, Graph.addIn, set2, h']
  · funext p j
    by_cases h : n.from p j
    · rw [if_pos h]; obtain ⟨rfl, rfl⟩ := h
      simp [Graph.connect, Graph.addOut, Graph.addIn, set2]
    · have h' : ¬ (p = n.src ∧ j = n.outlet) := fun ⟨x, y⟩ => h ⟨x.symm, y.symm⟩
      rw [if_neg h]
      simp [Graph.connect, Graph.addOut, Graph.addIn, set2, h']

/-- a removed connection -/
theorem disconnect_ok {g : Graph α} {M : Multiset Conn} (w : Wired g M) {c : Conn} (hc : c ∈ M) (hl : c.src ≠ c.dst) :
    ∃ g', g.disconnect c = some g' ∧ Wired g' (M.erase c) ∧ SameObjs g g' ∧
      g'.outs = fun p j => if c.from p j then (g.outs p j).erase c else g.outs p j := by
  have hin : c ∈ g.ins c.dst c.inlet := w.mem_ins.2 ⟨hc, rfl, rfl⟩
  have hout : c ∈ g.outs c.src c.outlet := w.mem_outs.2 ⟨hc, rfl, rfl⟩
  have ho : (fun p j => if c.from p j then (g.outs p j).erase c else g.outs p j) =
      set2 g.outs c.src c.outlet ((g.outs c.src c.outlet).erase c) := by
    funext p j
    by_cases h : c.from p j
    · rw [if_pos h]; obtain ⟨rfl, rfl⟩ := h; simp [set2]
    · have h' : ¬ (p = c.src ∧ j = c.outlet) := fun ⟨x, y⟩ => h ⟨x.symm, y.symm⟩
      rw [if_neg h]; simp [set2, h']
  refine ⟨{ g with outs := set2 g.outs c.src c.outlet ((g.outs c.src c.outlet).erase c)
                   ins := set2 g.ins c.dst c.inlet ((g.ins c.dst c.inlet).erase c) }, ?_, ⟨?_, ?_⟩, ⟨rfl, rfl⟩, ho.symm⟩
  · simp only [Graph.disconnect, if_neg hl, Graph.removeOut, Graph.removeIn, remove, if_pos hin, if_pos hout, bind, Option.bind,
      pure]
  · intro p j
    rw [← ho]
    by_cases h : c.from p j
    · simp only [if_pos h]
      rw [filter_erase_pos h, ← w.outs, Multiset.coe_erase]
    · simp only [if_neg h]
      rw [filter_erase_neg h, ← w.outs]
  · intro p j
    by_cases h : c.into p j
    · rw [filter_erase_pos h, ← w.ins, Multiset.coe_erase]
      obtain ⟨rfl, rfl⟩ := h; simp [set2]
    · have h' : ¬ (p = c.dst ∧ j = c.inlet) := fun ⟨x, y⟩ => h ⟨x.symm, y.symm⟩
      rw [filter_erase_neg h, ← w.ins]; simp [set2, h']

/-! ### lists of operations -/

/-- the control connections of a list, in order -/
def ctl (l : List Conn) : List Conn := l.filter (·.ty = .c)

theorem updates_append (us ws : List (Option Conn × List Conn)) : ∀ (g : Graph α),
    g.updates (us ++ ws) = (g.updates us).bind fun g => g.updates ws := by
  induction us with
  | nil => intro g; rfl
  | cons u us ih =>
    intro g
    simp only [List.cons_append, Graph.updates, bind]
    cases h : g.update u with
    | none => rfl
    | some g1 => simp only [Option.bind, ih]

/-- redirect a connection that goes to `o` -/
def redirect (o : Nat) (f : Conn → Conn) (c : Conn) : Conn := if c.dst = o then f c else c

theorem ctl_splice {o : Nat} {f : Conn → Conn} {c : Conn} {ns l1 l2 : List Conn} (hd : c.dst = o)
    (h : (c.ty = .c ∧ ns = [f c] ∧ (f c).dst ≠ o ∧ (f c).ty = .c) ∨ (c.ty ≠ .c ∧ ∀ n ∈ ns, n.ty ≠ .c)) :
    (ctl (l1 ++ ns ++ l2)).map (redirect o f) = (ctl (l1 ++ c :: l2)).map (redirect o f) := by
  rcases h with ⟨h1, rfl, h2, h3⟩ | ⟨h1, h2⟩
  · simp [ctl, List.filter_append, List.filter_cons, h1, h3, redirect, hd, h2]
  · have : ctl ns = [] := by
      rw [ctl, List.filter_eq_nil_iff]; intro n hn; simpa using h2 n hn
    simp only [ctl] at this
    simp [ctl, List.filter_append, this, h1]

/-- a list of updates that keep the start of each connection: the connections into an object `o` are redirected -/
theorem updates_src (us : List (Conn × List Conn)) : ∀ (g : Graph α) (R : Multiset Conn),
    Wired g (↑(us.map (·.1)) + R) → (∀ u ∈ us, u.2 ≠ [] ∧ ∀ n ∈ u.2, n.from u.1.src u.1.outlet) →
    ∃ g', g.updates (us.map fun u => (some u.1, u.2)) = some g' ∧ Wired g' (R + ↑(us.flatMap (·.2))) ∧ SameObjs g g' ∧
      (∀ p j, (∀ u ∈ us, ¬ u.1.from p j) → g'.outs p j = g.outs p j) ∧
      ∀ (f : Conn → Conn) (o : Nat),
        (∀ u ∈ us, u.1.dst = o ∧ ((u.1.ty = .c ∧ u.2 = [f u.1] ∧ (f u.1).dst ≠ o ∧ (f u.1).ty = .c) ∨
          (u.1.ty ≠ .c ∧ ∀ n ∈ u.2, n.ty ≠ .c))) → (∀ u ∈ us, ∀ n ∈ u.2, n.dst ≠ o) → (∀ c ∈ R, c.dst ≠ o) →
        ∀ p j, ctl (g'.outs p j) = (ctl (g.outs p j)).map (redirect o f) := by
  induction us with
  | nil =>
    intro g R w _
    refine ⟨g, rfl, by simpa using w, SameObjs.refl, fun _ _ _ => rfl, fun f o _ _ hR p j => ?_⟩
    refine (List.map_id' _).symm.trans (List.map_congr_left fun c hc => ?_)
    have : c ∈ g.outs p j := List.mem_of_mem_filter hc
    have := (w.mem_outs.1 this).1
    simp only [List.map_nil, Multiset.coe_nil, Multiset.zero_add] at this
    rw [redirect, if_neg (hR c this)]
  | cons u us ih =>
    intro g R w h
    obtain ⟨c, ns⟩ := u
    have hc := h (c, ns) (by simp)
    obtain ⟨g1, l1, l2, e1, e2, e3, e4, e5, e6⟩ := update_src w (c := c) (by simp) hc.1 hc.2
    have hM : (↑((((c, ns) :: us).map (·.1))) + R).erase c + (ns : Multiset Conn) =
        ↑(us.map (·.1)) + (R + (ns : Multiset Conn)) := by
      rw [List.map_cons, ← Multiset.cons_coe, Multiset.cons_add, Multiset.erase_cons_head, Multiset.add_assoc]
    rw [hM] at e2
    obtain ⟨g', f1, f2, f3, f3', f4⟩ := ih g1 _ e2 (fun u hu => h u (List.mem_cons_of_mem _ hu))
    refine ⟨g', ?_, ?_, e3.trans f3, ?_, ?_⟩
    · simp only [List.map_cons, Graph.updates, e1, bind, Option.bind, f1]
    · rw [List.flatMap_cons, ← Multiset.coe_add, ← Multiset.add_assoc]; exact f2
    · intro p j hp
      rw [f3' p j (fun u hu => hp u (List.mem_cons_of_mem _ hu)), e6]
      exact if_neg fun h => hp (c, ns) (by simp) ⟨h.1.symm, h.2.symm⟩
    · intro f o q1 q2 q3 p j
      rw [f4 f o (fun u hu => q1 u (List.mem_cons_of_mem _ hu)) (fun u hu => q2 u (List.mem_cons_of_mem _ hu)) ?_ p j, e6]
      · by_cases hp : p = c.src ∧ j = c.outlet
        · obtain ⟨rfl, rfl⟩ := hp
          have := q1 (c, ns) (by simp)
          simp only [set2, and_self, if_true, e4]
          exact ctl_splice this.1 this.2
        · simp only [set2, if_neg hp]
      · intro d hd
        rcases Multiset.mem_add.1 hd with hd | hd
        · exact q3 d hd
        · exact q2 (c, ns) (by simp) d hd

/-- all connections from `o` are moved to an object without connections -/
theorem updates_out {o x : Nat} (hx : x ≠ o) (L : List Conn) : ∀ (g : Graph α) (M R : Multiset Conn) (A : List Conn),
    Wired g M → M = ↑L + R → g.outs o 0 = L → g.outs x 0 = A → (∀ c ∈ L, c.dst ≠ o) →
    ∃ g', g.updates (fromOut L x) = some g' ∧ Wired g' (R + ↑(L.map fun c => { c with src := x, outlet := 0 })) ∧ SameObjs g g' ∧
      g'.outs x 0 = A ++ (L.map fun c => { c with src := x, outlet := 0 }) ∧ g'.outs o 0 = [] ∧
      ∀ p j, (p = x → j ≠ 0) → (p = o → j ≠ 0) → g'.outs p j = g.outs p j := by
  induction L with
  | nil =>
    intro g M R A w hM ho hA _
    subst hM
    exact ⟨g, rfl, by simpa using w, SameObjs.refl, by simpa using hA, ho, fun _ _ _ _ => rfl⟩
  | cons c L ih =>
    intro g M R A w hM ho hA hl
    have hc : c ∈ M := by rw [hM]; simp
    have hcs : c.src = o ∧ c.outlet = 0 := by
      have : c ∈ g.outs o 0 := by rw [ho]; simp
      exact (w.mem_outs.1 this).2
    obtain ⟨g1, e1, e2, e3, e4⟩ := update_dst (n := { c with src := x, outlet := 0 }) w hc
      (by rw [hcs.1]; exact fun h => hl c (by simp) h.symm) (by simpa [hcs.1] using hx) ⟨rfl, rfl⟩
    have hM' : M.erase c + {({ c with src := x, outlet := 0 } : Conn)} = ↑L + (R + {({ c with src := x, outlet := 0 } : Conn)}) := by
      rw [hM, ← Multiset.cons_coe, Multiset.cons_add, Multiset.erase_cons_head, Multiset.add_assoc]
    have hxo : ¬ (x = o) := hx
    have ho1 : g1.outs o 0 = L := by
      rw [e4]
      simp only [Conn.from, hx, false_and, if_false, hcs, and_self, if_true, ho]
      simp
    have hx1 : g1.outs x 0 = A ++ [{ c with src := x, outlet := 0 }] := by
      rw [e4]; simp [Conn.from, hA]
    obtain ⟨g', f1, f2, f3, f4, f5, f6⟩ := ih g1 _ _ _ e2 hM' ho1 hx1 (fun d hd => hl d (List.mem_cons_of_mem _ hd))
    refine ⟨g', ?_, ?_, e3.trans f3, ?_, f5, ?_⟩
    · simp only [fromOut, List.map_cons, Graph.updates, e1, bind, Option.bind]; exact f1
    · rw [List.map_cons, ← Multiset.cons_coe, ← Multiset.singleton_add, ← Multiset.add_assoc]; exact f2
    · rw [f4]; simp
    · intro p j h1 h2
      rw [f6 p j h1 h2, e4]
      have q1 : ¬ (x = p ∧ 0 = j) := fun ⟨a, b⟩ => h1 a.symm b.symm
      have q2 : ¬ (c.src = p ∧ c.outlet = j) := fun ⟨a, b⟩ => h2 (by rw [← a, hcs.1]) (by rw [← b, hcs.2])
      exact (if_neg q1).trans (if_neg q2)

theorem filter_erase_list {o : Nat} {c : Conn} (h : c.dst = o) (l : List Conn) :
    (l.erase c).filter (fun x => decide (x.dst ≠ o)) = l.filter fun x => decide (x.dst ≠ o) := by
  induction l with
  | nil => rfl
  | cons d l ihl =>
    by_cases hd : d = c
    · subst hd; simp [h]
    · rw [List.erase_cons_tail (by simpa using hd), List.filter_cons, List.filter_cons, ihl]

/-- several connections are removed -/
theorem disconnects_ok (L : List Conn) : ∀ (g : Graph α) (R : Multiset Conn), Wired g (↑L + R) → (∀ c ∈ L, c.src ≠ c.dst) →
    ∃ g', g.disconnects L = some g' ∧ Wired g' R ∧ SameObjs g g' ∧
      (∀ p j, (∀ c ∈ L, ¬ c.from p j) → g'.outs p j = g.outs p j) ∧
      ∀ o, (∀ c ∈ L, c.dst = o) → (∀ c ∈ R, c.dst ≠ o) → ∀ p j, g'.outs p j = (g.outs p j).filter (·.dst ≠ o) := by
  induction L with
  | nil =>
    intro g R w _
    refine ⟨g, rfl, by simpa using w, SameObjs.refl, fun _ _ _ => rfl, fun o _ hR p j => ?_⟩
    refine (List.filter_eq_self.2 fun c hc => ?_).symm
    have := (w.mem_outs.1 hc).1
    simp only [Multiset.coe_nil, Multiset.zero_add] at this
    simpa using hR c this
  | cons c L ih =>
    intro g R w h
    obtain ⟨g1, e1, e2, e3, e4⟩ := disconnect_ok w (c := c) (by simp) (h c (by simp))
    rw [← Multiset.cons_coe, Multiset.cons_add, Multiset.erase_cons_head] at e2
    obtain ⟨g', f1, f2, f3, f4, f5⟩ := ih g1 R e2 (fun d hd => h d (List.mem_cons_of_mem _ hd))
    refine ⟨g', ?_, f2, e3.trans f3, ?_, ?_⟩
    · simp only [Graph.disconnects, e1, bind, Option.bind, f1]
    · intro p j hp
      rw [f4 p j (fun d hd => hp d (List.mem_cons_of_mem _ hd)), e4]
      exact if_neg (hp c (by simp))
    · intro o h1 h2 p j
      rw [f5 o (fun d hd => h1 d (List.mem_cons_of_mem _ hd)) h2 p j, e4]
      by_cases hp : c.from p j
      · simp only [if_pos hp]
        exact filter_erase_list (h1 c (by simp)) _
      · simp only [if_neg hp]

/-- new connections of signals -/
theorem updates_new (E : List Conn) : ∀ (g : Graph α) (M : Multiset Conn), Wired g M → (∀ e ∈ E, e.ty ≠ .c) →
    ∃ g', g.updates (E.map fun e => (none, [e])) = some g' ∧ Wired g' (M + ↑E) ∧ SameObjs g g' ∧
      (∀ p j, (∀ e ∈ E, ¬ e.from p j) → g'.outs p j = g.outs p j) ∧ ∀ p j, ctl (g'.outs p j) = ctl (g.outs p j) := by
  induction E with
  | nil => intro g M w _; exact ⟨g, rfl, by simpa using w, SameObjs.refl, fun _ _ _ => rfl, fun _ _ => rfl⟩
  | cons e E ih =>
    intro g M w h
    obtain ⟨e1, e2, e3⟩ := connect_ok w e
    obtain ⟨g', f1, f2, f3, f4, f5⟩ := ih _ _ e1 (fun d hd => h d (List.mem_cons_of_mem _ hd))
    refine ⟨g', ?_, ?_, e2.trans f3, ?_, ?_⟩
    · simp only [List.map_cons, Graph.updates, Graph.update, List.foldl_cons, List.foldl_nil, bind, Option.bind]; exact f1
    · rw [← Multiset.cons_coe, ← Multiset.singleton_add, ← Multiset.add_assoc]; exact f2
    · intro p j hp
      rw [f4 p j (fun d hd => hp d (List.mem_cons_of_mem _ hd)), e3]
      exact if_neg (hp e (by simp))
    · intro p j
      rw [f5, e3]
      by_cases hp : e.from p j
      · simp only [if_pos hp]
        have := h e (by simp)
        simp [ctl, List.filter_append, this]
      · simp only [if_neg hp]

/-! ### one object -/

/-- the connections of the other objects among each other -/
def rest (M : Multiset Conn) (o : Nat) : Multiset Conn := M.filter fun c => c.src ≠ o ∧ c.dst ≠ o
/-- the connections into an object -/
def intoObj (M : Multiset Conn) (o : Nat) : Multiset Conn := M.filter (·.dst = o)
/-- the connections from an object -/
def fromObj (M : Multiset Conn) (o : Nat) : Multiset Conn := M.filter (·.src = o)

/-- let a connection start somewhere else -/
def Conn.startAt (x j : Nat) (c : Conn) : Conn := { c with src := x, outlet := j }

/-- ends below `n`, no loops -/
structure Clean (M : Multiset Conn) (n : Nat) : Prop where
  src : ∀ c ∈ M, c.src < n
  dst : ∀ c ∈ M, c.dst < n
  loop : ∀ c ∈ M, c.src ≠ c.dst

theorem Clean.split {M : Multiset Conn} {n : Nat} (h : Clean M n) (o : Nat) : M = intoObj M o + (fromObj M o + rest M o) := by
  have h1 := Multiset.filter_add_not (fun c : Conn => c.dst = o) M
  have h2 := Multiset.filter_add_not (fun c : Conn => c.src = o) (M.filter fun c => ¬ c.dst = o)
  rw [Multiset.filter_filter, Multiset.filter_filter] at h2
  conv_lhs => rw [← h1, ← h2]
  congr 1
  congr 1
  · refine Multiset.filter_congr fun c hc => ⟨fun h => h.1, fun h1 => ⟨h1, fun h2 => h.loop c hc (h1.trans h2.symm)⟩⟩

theorem filter_step (M : Multiset Conn) (o k : Nat) :
    M.filter (fun c => c.dst = o ∧ c.inlet < k + 1) = M.filter (fun c => c.dst = o ∧ c.inlet < k) + M.filter (·.into o k) := by
  induction M using Multiset.induction_on with
  | empty => rfl
  | cons c M ih =>
    by_cases h1 : c.dst = o ∧ c.inlet < k
    · have h2 : ¬ c.into o k := fun h => by have := h1.2; have := h.2; omega
      rw [Multiset.filter_cons_of_pos M (p := fun c : Conn => c.dst = o ∧ c.inlet < k) h1,
        Multiset.filter_cons_of_pos M (p := fun c : Conn => c.dst = o ∧ c.inlet < k + 1) ⟨h1.1, by omega⟩,
        Multiset.filter_cons_of_neg M (p := fun c : Conn => c.into o k) h2, ih, Multiset.cons_add]
    · rw [Multiset.filter_cons_of_neg M (p := fun c : Conn => c.dst = o ∧ c.inlet < k) h1]
      by_cases h2 : c.into o k
      · rw [Multiset.filter_cons_of_pos M (p := fun c : Conn => c.dst = o ∧ c.inlet < k + 1) ⟨h2.1, by have := h2.2; omega⟩,
          Multiset.filter_cons_of_pos M (p := fun c : Conn => c.into o k) h2, ih, Multiset.add_cons]
      · rw [Multiset.filter_cons_of_neg M (p := fun c : Conn => c.dst = o ∧ c.inlet < k + 1),
          Multiset.filter_cons_of_neg M (p := fun c : Conn => c.into o k) h2, ih]
        intro h
        have : c.inlet = k ∨ c.inlet < k := by omega
        rcases this with e | e
        · exact h2 ⟨h.1, e⟩
        · exact h1 ⟨h.1, e⟩

theorem ins_range {g : Graph α} {M : Multiset Conn} (w : Wired g M) (o k : Nat) :
    (((List.range k).flatMap (g.ins o) : List Conn) : Multiset Conn) = M.filter fun c => c.dst = o ∧ c.inlet < k := by
  induction k with
  | zero => simp
  | succ k ih => rw [List.range_succ, List.flatMap_append, ← Multiset.coe_add, ih, filter_step, ← w.ins]; simp

/-- the lets of an object with `k` inlets and one outlet -/
structure Lets (M : Multiset Conn) (o k : Nat) : Prop where
  inlet : ∀ c ∈ M, c.dst = o → c.inlet < k
  outlet : ∀ c ∈ M, c.src = o → c.outlet = 0

theorem Lets.ins {g : Graph α} {M : Multiset Conn} {o k : Nat} (h : Lets M o k) (w : Wired g M) :
    (((List.range k).flatMap (g.ins o) : List Conn) : Multiset Conn) = intoObj M o := by
  rw [ins_range w]
  exact Multiset.filter_congr fun c hc => ⟨fun h => h.1, fun hd => ⟨hd, h.inlet c hc hd⟩⟩

theorem Lets.outs {g : Graph α} {M : Multiset Conn} {o k : Nat} (h : Lets M o k) (w : Wired g M) :
    (g.outs o 0 : Multiset Conn) = fromObj M o := by
  rw [w.outs]
  exact Multiset.filter_congr fun c hc => ⟨fun h => h.1, fun hd => ⟨hd, h.outlet c hc hd⟩⟩

/-- what the step does to the objects and the connections: `o` is gone, the new objects `xs` are there, the connections that
came from `o` now come from outlet `j` of `x`, and there are the connections `I` into the new objects -/
structure Result (g : Graph α) (n : Nat) (M : Multiset Conn) (o : Nat) (g' : Graph α) (xs : List (Kind α)) (I : Multiset Conn)
    (x j : Nat) : Prop where
  wired : Wired g' (rest M o + (I + (fromObj M o).map (Conn.startAt x j)))
  ids : g'.ids = (g.ids ++ List.range' n xs.length).erase o
  kindOld : ∀ p, p < n → g'.kind p = g.kind p
  kindNew : ∀ i y, xs[i]? = some y → g'.kind (n + i) = y

theorem addObjs_ok (xs : List (Kind α)) : ∀ (g : Graph α) (n : Nat) (M : Multiset Conn), Wired g M → (∀ c ∈ M, c.src < n) →
    (∀ c ∈ M, c.dst < n) →
    Wired (g.addObjs n xs) M ∧ (g.addObjs n xs).ids = g.ids ++ List.range' n xs.length ∧
    (∀ p, p < n → (g.addObjs n xs).kind p = g.kind p) ∧ (∀ i y, xs[i]? = some y → (g.addObjs n xs).kind (n + i) = y) ∧
    (∀ p j, p < n → (g.addObjs n xs).outs p j = g.outs p j ∧ (g.addObjs n xs).ins p j = g.ins p j) := by
  induction xs with
  | nil => intro g n M w _ _; simp [Graph.addObjs, w]
  | cons x xs ih =>
    intro g n M w h1 h2
    have w' : Wired (g.addObj n x) M := by
      constructor
      · intro p j
        by_cases hp : p = n
        · subst hp
          simp only [Graph.addObj, if_true, Multiset.coe_nil]
          exact (Multiset.filter_eq_nil.2 fun c hc hf => by have := h1 c hc; have := hf.1; omega).symm
        · simp only [Graph.addObj, if_neg hp]; exact w.outs p j
      · intro p j
        by_cases hp : p = n
        · subst hp
          simp only [Graph.addObj, if_true, Multiset.coe_nil]
          exact (Multiset.filter_eq_nil.2 fun c hc hf => by have := h2 c hc; have := hf.1; omega).symm
        · simp only [Graph.addObj, if_neg hp]; exact w.ins p j
    obtain ⟨a, b, c, d, e⟩ := ih (g.addObj n x) (n + 1) M w' (fun c hc => by have := h1 c hc; omega)
      (fun c hc => by have := h2 c hc; omega)
    refine ⟨a, ?_, ?_, ?_, ?_⟩
    · rw [Graph.addObjs, b]; simp [Graph.addObj, List.range'_succ]
    · intro p hp
      rw [Graph.addObjs, c p (by omega)]
      simp [Graph.addObj, Nat.ne_of_lt hp]
    · intro i y hy
      cases i with
      | zero =>
        simp only [List.getElem?_cons_zero, Option.some.injEq] at hy
        rw [Graph.addObjs]
        refine (c n (by omega)).trans ?_
        simpa [Graph.addObj] using hy
      | succ i =>
        rw [List.getElem?_cons_succ] at hy
        rw [Graph.addObjs, show n + (i + 1) = n + 1 + i by omega]
        exact d i y hy
    · intro p j hp
      have := e p j (by omega)
      rw [Graph.addObjs, this.1, this.2]
      simp [Graph.addObj, Nat.ne_of_lt hp]

/-- the object is removed when nothing is connected to its outlet -/
theorem drop_ok {g : Graph α} {n o : Nat} {M : Multiset Conn} (w : Wired g M) (hc : Clean M n)
    (hl : Lets M o (g.kind o).numInlets) (ho : g.outs o 0 = []) :
    ∃ g', g.removeObj o = some g' ∧ Result g n M o g' [] 0 0 0 ∧ fromObj M o = 0 ∧
      ∀ p j, g'.outs p j = (g.outs p j).filter (·.dst ≠ o) := by
  have hf : fromObj M o = 0 := by rw [← hl.outs w, ho]; rfl
  have hM := hc.split o
  rw [hf, Multiset.zero_add, ← hl.ins w] at hM
  have w' := w
  rw [hM] at w'
  obtain ⟨g1, e1, e2, e3, e4, e5⟩ := disconnects_ok _ _ _ w' (fun c hcm => by
    have : c ∈ intoObj M o := by rw [← hl.ins w]; exact hcm
    exact hc.loop c (Multiset.mem_of_mem_filter this))
  have hin : ∀ c ∈ (List.range (g.kind o).numInlets).flatMap (g.ins o), c.dst = o := by
    intro c hcm
    have : c ∈ intoObj M o := by rw [← hl.ins w]; exact hcm
    exact (Multiset.mem_filter.1 this).2
  have ho1 : g1.outs o 0 = [] := by
    rw [e5 o hin (fun c hcm => (Multiset.mem_filter.1 hcm).2.2), ho]; rfl
  refine ⟨{ g1 with ids := g1.ids.erase o }, ?_, ⟨?_, ?_, ?_, ?_⟩, hf, ?_⟩
  · simp only [Graph.removeObj, Graph.allIns, e1, ho1, Graph.disconnects, bind, Option.bind, pure]
  · rw [hf]; simpa using ⟨e2.outs, e2.ins⟩
  · simp [e3.ids]
  · intro p _; simp [e3.kind]
  · intro i y hy; simp at hy
  · exact e5 o hin (fun c hcm => (Multiset.mem_filter.1 hcm).2.2)

theorem removeObj_bare {g : Graph α} {M : Multiset Conn} {o : Nat} (w : Wired g M) (h1 : ∀ c ∈ M, c.dst ≠ o)
    (h2 : g.outs o 0 = []) : g.removeObj o = some { g with ids := g.ids.erase o } := by
  have : g.allIns o = [] := by
    rw [Graph.allIns, List.flatMap_eq_nil_iff]
    intro i _
    rw [List.eq_nil_iff_forall_not_mem]
    intro c hc
    have := w.mem_ins.1 hc
    exact h1 c this.1 this.2.1
  simp only [Graph.removeObj, this, Graph.disconnects, h2, bind, Option.bind, pure]

theorem flatMap_pairs : ∀ prs : List (Conn × Conn), (prs.map fun pr => (pr.1, [pr.2])).flatMap (·.2) = prs.map (·.2)
  | [] => rfl
  | _ :: l => by simp only [List.map_cons, List.flatMap_cons, flatMap_pairs l]; rfl

/-- the object is replaced by new objects -/
theorem build_ok {g : Graph α} {n o : Nat} {M : Multiset Conn} (w : Wired g M) (hc : Clean M n)
    (hl : Lets M o (g.kind o).numInlets) (ho : o < n) (xs : List (Kind α)) (x : Nat) (hx : n ≤ x) (prs : List (Conn × Conn))
    (hp : (↑(prs.map (·.1)) : Multiset Conn) = intoObj M o)
    (hn : ∀ pr ∈ prs, pr.2.from pr.1.src pr.1.outlet ∧ n ≤ pr.2.dst) (E1 E2 : List Conn)
    (hE : ∀ e ∈ E1 ++ E2, e.ty ≠ .c ∧ n ≤ e.src ∧ n ≤ e.dst) :
    ∃ g1 g', (g.addObjs n xs).updates ((E1.map fun e => (none, [e])) ++ (prs.map fun pr => (some pr.1, [pr.2])) ++
        fromOut (g.outs o 0) x ++ E2.map fun e => (none, [e])) = some g1 ∧ g1.removeObj o = some g' ∧
      Result g n M o g' xs (↑(prs.map (·.2)) + (↑E1 + ↑E2)) x 0 ∧
      (∀ f : Conn → Conn, (∀ pr ∈ prs, (pr.1.ty = .c ∧ pr.2 = f pr.1 ∧ (f pr.1).ty = .c) ∨ (pr.1.ty ≠ .c ∧ pr.2.ty ≠ .c)) →
        ∀ p j, p < n → p ≠ o → ctl (g'.outs p j) = (ctl (g.outs p j)).map (redirect o f)) ∧
      ctl (g'.outs x 0) = (ctl (g.outs o 0)).map (Conn.startAt x 0) := by
  obtain ⟨wA, a1, a2, a3, a4⟩ := addObjs_ok xs g n M w hc.src hc.dst
  obtain ⟨g1, b1, b2, b3, b4, b5⟩ := updates_new E1 _ _ wA (fun e he => (hE e (by simp [he])).1)
  have hM1 : M + ↑E1 = ↑((prs.map fun pr => (pr.1, [pr.2])).map (·.1)) + (fromObj M o + rest M o + ↑E1) := by
    have : (prs.map fun pr => (pr.1, [pr.2])).map (·.1) = prs.map (·.1) := by simp
    rw [this, hp]
    conv_lhs => rw [hc.split o]
    simp only [Multiset.add_assoc]
  rw [hM1] at b2
  have hprs : ∀ pr ∈ prs, pr.1 ∈ M ∧ pr.1.dst = o := by
    intro pr hpr
    have : pr.1 ∈ intoObj M o := by rw [← hp, Multiset.mem_coe]; exact List.mem_map_of_mem hpr
    exact ⟨Multiset.mem_of_mem_filter this, (Multiset.mem_filter.1 this).2⟩
  obtain ⟨g2, c1, c2, c3, c4, c5⟩ := updates_src (prs.map fun pr => (pr.1, [pr.2])) g1 _ b2 (by
    intro u hu
    obtain ⟨pr, hpr, rfl⟩ := List.mem_map.1 hu
    exact ⟨by simp, fun m hm => by rw [List.mem_singleton.1 hm]; exact (hn pr hpr).1⟩)
  have hfl : (prs.map fun pr => (pr.1, [pr.2])).flatMap (·.2) = prs.map (·.2) := by
    exact flatMap_pairs prs
  rw [hfl] at c2
  have ho2 : g2.outs o 0 = g.outs o 0 := by
    rw [c4 o 0, b4 o 0, (a4 o 0 ho).1]
    · intro e he h
      have := (hE e (by simp [he])).2.1
      have := h.1
      omega
    · intro u hu h
      obtain ⟨pr, hpr, rfl⟩ := List.mem_map.1 hu
      exact hc.loop _ (hprs pr hpr).1 (h.1.trans (hprs pr hpr).2.symm)
  have hx2 : ctl (g2.outs x 0) = [] := by
    rw [c4 x 0, b5]
    · have : (g.addObjs n xs).outs x 0 = [] := by
        rw [List.eq_nil_iff_forall_not_mem]
        intro c hcm
        have := wA.mem_outs.1 hcm
        have := hc.src c this.1
        omega
      rw [this]; rfl
    · intro u hu h
      obtain ⟨pr, hpr, rfl⟩ := List.mem_map.1 hu
      have := hc.src _ (hprs pr hpr).1
      have h1 : pr.1.src = x := h.1
      omega
  have hxo : x ≠ o := by omega
  have hM2 : fromObj M o + rest M o + ↑E1 + ↑(prs.map (·.2)) =
      ↑(g.outs o 0) + (rest M o + ↑E1 + ↑(prs.map (·.2))) := by
    rw [hl.outs w]; simp only [Multiset.add_assoc]
  obtain ⟨g3, d1, d2, d3, d4, d5, d6⟩ := updates_out hxo (g.outs o 0) g2 _ _ _ c2 hM2 ho2 rfl (by
    intro c hcm h
    have := w.mem_outs.1 hcm
    exact hc.loop c this.1 (this.2.1.trans h.symm))
  obtain ⟨g4, e1, e2, e3, e4, e5⟩ := updates_new E2 g3 _ d2 (fun e he => (hE e (by simp [he])).1)
  have hfin : rest M o + ↑E1 + ↑(prs.map (·.2)) + ↑((g.outs o 0).map fun c => { c with src := x, outlet := 0 }) + ↑E2 =
      rest M o + (↑(prs.map (·.2)) + (↑E1 + ↑E2) + (fromObj M o).map (Conn.startAt x 0)) := by
    rw [← hl.outs w, Multiset.map_coe]
    have : ((g.outs o 0).map fun c => ({ c with src := x, outlet := 0 } : Conn)) = (g.outs o 0).map (Conn.startAt x 0) := rfl
    rw [this]
    generalize rest M o = a
    generalize (↑E1 : Multiset Conn) = b
    generalize (↑(prs.map (·.2)) : Multiset Conn) = c
    generalize (↑((g.outs o 0).map (Conn.startAt x 0)) : Multiset Conn) = d
    generalize (↑E2 : Multiset Conn) = e
    rw [Multiset.add_assoc a b c, Multiset.add_comm b c, Multiset.add_assoc a, Multiset.add_assoc a, Multiset.add_assoc (c + b),
      Multiset.add_assoc c b, Multiset.add_comm d e, ← Multiset.add_assoc b e d, ← Multiset.add_assoc c (b + e) d]
  rw [hfin] at e2
  have hne : ∀ c ∈ rest M o + (↑(prs.map (·.2)) + (↑E1 + ↑E2) + (fromObj M o).map (Conn.startAt x 0)), c.dst ≠ o := by
    intro c hcm
    rcases Multiset.mem_add.1 hcm with h | h
    · exact (Multiset.mem_filter.1 h).2.2
    · rcases Multiset.mem_add.1 h with h | h
      · rcases Multiset.mem_add.1 h with h | h
        · obtain ⟨pr, hpr, rfl⟩ := List.mem_map.1 (Multiset.mem_coe.1 h)
          have := (hn pr hpr).2; omega
        · rw [Multiset.coe_add, Multiset.mem_coe] at h
          have := (hE c h).2.2; omega
      · obtain ⟨d, hd, rfl⟩ := Multiset.mem_map.1 h
        have := Multiset.mem_filter.1 hd
        exact fun hh => hc.loop d this.1 (this.2.trans hh.symm)
  have ho4 : g4.outs o 0 = [] := by
    rw [e4 o 0, d5]
    intro e he h
    have := (hE e (by simp [he])).2.1
    have := h.1
    omega
  refine ⟨g4, _, ?_, removeObj_bare e2 hne ho4, ⟨⟨e2.outs, e2.ins⟩, ?_, ?_, ?_⟩, ?_, ?_⟩
  · have hcm : (prs.map fun pr => (some pr.1, [pr.2])) = (prs.map fun pr => (pr.1, [pr.2])).map fun u => (some u.1, u.2) := by
      simp
    rw [updates_append, updates_append, updates_append, b1, hcm]
    simp only [Option.bind, c1, d1, e1]
  · show g4.ids.erase o = _
    rw [e3.ids, d3.ids, c3.ids, b3.ids, a1]
  · intro p hp'
    show g4.kind p = _
    rw [e3.kind, d3.kind, c3.kind, b3.kind, a2 p hp']
  · intro i y hy
    show g4.kind _ = _
    rw [e3.kind, d3.kind, c3.kind, b3.kind, a3 i y hy]
  · intro f hf p j hp1 hp2
    show ctl (g4.outs p j) = _
    rw [e5, d6 p j (fun h => by omega) (fun h => absurd h hp2), c5 f o ?_ ?_ ?_, b5, (a4 p j hp1).1]
    · intro u hu
      obtain ⟨pr, hpr, rfl⟩ := List.mem_map.1 hu
      refine ⟨(hprs pr hpr).2, ?_⟩
      have h2 := (hn pr hpr).2
      rcases hf pr hpr with ⟨q1, q2, q3⟩ | ⟨q1, q2⟩
      · left; exact ⟨q1, by simp [q2], by rw [← q2]; omega, q3⟩
      · right; exact ⟨q1, fun m hm => by rw [List.mem_singleton.1 hm]; exact q2⟩
    · intro u hu m hm
      obtain ⟨pr, hpr, rfl⟩ := List.mem_map.1 hu
      rw [List.mem_singleton.1 hm]
      have := (hn pr hpr).2; omega
    · intro c hcm
      rcases Multiset.mem_add.1 hcm with h | h
      · rcases Multiset.mem_add.1 h with h | h
        · have := Multiset.mem_filter.1 h
          exact fun hh => hc.loop c this.1 (this.2.trans hh.symm)
        · exact (Multiset.mem_filter.1 h).2.2
      · have := (hE c (by simp [Multiset.mem_coe.1 h])).2.2; omega
  · show ctl (g4.outs x 0) = _
    rw [e5, d4, ctl, List.filter_append]
    have : List.filter (fun c => decide (c.ty = Ty.c)) (g2.outs x 0) = [] := hx2
    rw [this, List.nil_append, List.filter_map]
    rfl

/-- the object is left out: its only incoming connection goes on to everything behind it -/
theorem pass_ok {g : Graph α} {n o : Nat} {M : Multiset Conn} (w : Wired g M) (hc : Clean M n)
    (hl : Lets M o (g.kind o).numInlets) (c : Conn) (hi : intoObj M o = {c}) (hne : g.outs o 0 ≠ [])
    (ht : c.ty ≠ .c) (hty : ∀ v ∈ fromObj M o, v.ty = c.ty) :
    ∃ g1 g', g.updates [(some c, (g.outs o 0).map fun v => { c with dst := v.dst, inlet := v.inlet })] = some g1 ∧
      g1.removeObj o = some g' ∧ Result g n M o g' [] 0 c.src c.outlet ∧
      ∀ p j, ctl (g'.outs p j) = if p = o ∧ j = 0 then [] else ctl (g.outs p j) := by
  have hcM : c ∈ M ∧ c.dst = o := by
    have : c ∈ intoObj M o := by rw [hi]; simp
    exact Multiset.mem_filter.1 this
  set ns := (g.outs o 0).map fun v => ({ c with dst := v.dst, inlet := v.inlet } : Conn) with hns
  have hso : c.src ≠ o := fun h => hc.loop c hcM.1 (h.trans hcM.2.symm)
  have hout : ∀ v ∈ g.outs o 0, v ∈ fromObj M o ∧ v.dst ≠ o := by
    intro v hv
    have h1 : v ∈ fromObj M o := by rw [← hl.outs w]; exact hv
    have h2 := Multiset.mem_filter.1 h1
    exact ⟨h1, fun h => hc.loop v h2.1 (h2.2.trans h.symm)⟩
  have hnsM : (ns : Multiset Conn) = (fromObj M o).map (Conn.startAt c.src c.outlet) := by
    rw [← hl.outs w, Multiset.map_coe, hns]
    congr 1
    refine List.map_congr_left fun v hv => ?_
    simp only [Conn.startAt, hty v (hout v hv).1]
  have hnsd : ∀ m ∈ ns, m.dst ≠ o := by
    intro m hm
    obtain ⟨v, hv, rfl⟩ := List.mem_map.1 hm
    exact (hout v hv).2
  obtain ⟨g1, l1, l2, e1, e2, e3, e4, e5, e6⟩ := update_src w hcM.1 (ns := ns) (by simpa [hns] using hne) (by
    intro m hm
    obtain ⟨v, hv, rfl⟩ := List.mem_map.1 hm
    exact ⟨rfl, rfl⟩)
  have hM1 : M.erase c + (ns : Multiset Conn) = ↑(g.outs o 0) + (rest M o + ↑ns) := by
    conv_lhs => rw [hc.split o]
    rw [hi, Multiset.singleton_add, Multiset.erase_cons_head, hl.outs w, Multiset.add_assoc]
  rw [hM1] at e2
  have ho1 : g1.outs o 0 = g.outs o 0 := by
    rw [e6]
    exact if_neg fun h => hso h.1.symm
  have hin : g1.allIns o = [] := by
    rw [Graph.allIns, List.flatMap_eq_nil_iff]
    intro i _
    rw [List.eq_nil_iff_forall_not_mem]
    intro d hd
    obtain ⟨h1, h2, -⟩ := e2.mem_ins.1 hd
    rcases Multiset.mem_add.1 h1 with h | h
    · exact (hout d (Multiset.mem_coe.1 h)).2 h2
    · rcases Multiset.mem_add.1 h with h | h
      · exact (Multiset.mem_filter.1 h).2.2 h2
      · exact hnsd d (Multiset.mem_coe.1 h) h2
  obtain ⟨g2, f1, f2, f3, f4, f5⟩ := disconnects_ok _ _ _ e2 (by
    intro v hv
    exact hc.loop v (Multiset.mem_of_mem_filter (hout v hv).1))
  refine ⟨g1, { g2 with ids := g2.ids.erase o }, ?_, ?_, ⟨?_, ?_, ?_, ?_⟩, ?_⟩
  · simp only [Graph.updates, e1, bind, Option.bind]
  · simp only [Graph.removeObj, hin, Graph.disconnects, ho1, f1, bind, Option.bind, pure]
  · rw [hnsM] at f2
    rw [Multiset.zero_add]
    exact ⟨f2.outs, f2.ins⟩
  · simp [f3.ids, e3.ids]
  · intro p _
    show g2.kind p = _
    rw [f3.kind, e3.kind]
  · intro i y hy; simp at hy
  · intro p j
    show ctl (g2.outs p j) = _
    by_cases hp : p = o ∧ j = 0
    · rw [if_pos hp]
      obtain ⟨rfl, rfl⟩ := hp
      have : g2.outs p 0 = [] := by
        rw [List.eq_nil_iff_forall_not_mem]
        intro d hd
        obtain ⟨h1, h2, -⟩ := f2.mem_outs.1 hd
        rcases Multiset.mem_add.1 h1 with h | h
        · exact (Multiset.mem_filter.1 h).2.1 h2
        · obtain ⟨v, hv, rfl⟩ := List.mem_map.1 (Multiset.mem_coe.1 h)
          exact hso h2
      rw [this]; rfl
    · rw [if_neg hp, f4 p j, e6]
      · by_cases h : p = c.src ∧ j = c.outlet
        · obtain ⟨rfl, rfl⟩ := h
          simp only [set2, and_self, if_true, e4]
          have : ctl ns = [] := by
            rw [ctl, List.filter_eq_nil_iff]
            intro m hm
            obtain ⟨v, hv, rfl⟩ := List.mem_map.1 hm
            simpa using ht
          simp only [ctl] at this
          simp [ctl, List.filter_append, this, ht]
        · simp only [set2, if_neg h]
      · intro d hd h
        obtain ⟨-, h1, h2⟩ := w.mem_outs.1 hd
        exact hp ⟨h.1.symm.trans h1, h.2.symm.trans h2⟩

end Verif.Reduce
