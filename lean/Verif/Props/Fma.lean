import Verif.Fma
import Verif.Props.Cascade
import Mathlib.Algebra.Ring.Basic
/-!
# C34: fusing multiply and add

Specification: `Interp K N F` — the objects of type `__mul~f`, `__add~f`, `__sub~f`, `__fma~f`, `__fms~f` compute what their names
say (in exact arithmetic).  The signals of the patch (`Flow`) before and after the rewrite agree on all objects that remain.
-/
namespace Verif.Signal
open Relation

variable {α : Type}

/-! ### specification -/

/-- the meaning of the arithmetic objects (those with a number below `N`) -/
structure Interp [CommRing α] (K : Nat → Kind) (N : Nat) (F : Nat → List α → List α) : Prop where
  mul : ∀ o < N, K o = .mul → ∀ x y, F o [x, y] = [x * y]
  add : ∀ o < N, K o = .add → ∀ x y, F o [x, y] = [x + y]
  sub : ∀ o < N, K o = .sub → ∀ x y, F o [x, y] = [x - y]
  fma : ∀ o < N, K o = .fma → ∀ x y z, F o [x, y, z] = [x * y + z]
  fms : ∀ o < N, K o = .fms → ∀ x y z, F o [x, y, z] = [x * y - z]

/-- the types that take part -/
def Arith (x : Kind) : Prop := x = .mul ∨ x = .add ∨ x = .sub

/-- well-formed typed graphs: the arithmetic objects have two inlets and one signal outlet -/
structure KWF (k : KGraph) : Prop where
  wf : WF k.g
  arity : ∀ p ∈ k.g.ids, Arith (k.kind p) → (k.g.obj p).inlets.length = 2 ∧ (∃ out, (k.g.obj p).outlets = [out] ∧ out.ty = some .f) ∧
    (k.g.obj p).signal = true
  sig : ∀ p ∈ k.g.ids, ∀ l ∈ (k.g.obj p).inlets, ∀ c ∈ l.conns, Arith (k.kind c.src) → c.isSignal = true

/-! ### what a match is -/

theorem single_eq {x : Obj} {i : Nat} {c : Conn} (h : x.single i = some c) : ∃ p, x.inlets[i]? = some ⟨[c], p⟩ := by
  unfold Obj.single at h
  split at h
  · rename_i l hl
    split at h
    · rename_i c' hc
      cases h
      exact ⟨l.preset, by rw [hl, ← hc]⟩
    · simp at h
  · simp at h

theorem two_inlets {x : Obj} {a b : Conn} (h : x.inlets.length = 2) (h0 : x.single 0 = some a) (h1 : x.single 1 = some b) :
    ∃ p p', x.inlets = [⟨[a], p⟩, ⟨[b], p'⟩] := by
  obtain ⟨p, hp⟩ := single_eq h0
  obtain ⟨p', hp'⟩ := single_eq h1
  match hx : x.inlets, h with
  | [u, v], _ =>
    rw [hx] at hp hp'
    simp at hp hp'
    exact ⟨p, p', by rw [hp, hp']⟩

theorem mem_users {g : Graph} {o q i : Nat} (h : (q, i) ∈ g.users o) :
    q ∈ g.ids ∧ ∃ l, (g.obj q).inlets[i]? = some l ∧ ∃ c ∈ l.conns, c.src = o ∧ c.outlet = 0 := by
  simp only [Graph.users, List.mem_flatMap, List.mem_map, List.mem_filter] at h
  obtain ⟨q', hq, ⟨l, j⟩, hl, c, ⟨hc, hs⟩, e⟩ := h
  cases e
  have := List.mem_zipIdx_iff_getElem?.mp hl
  simp at hs
  exact ⟨hq, l, this, c, hc, hs⟩

/-- the situation in which a replacement takes place -/
structure Fused (k : KGraph) (n o : Nat) (m : Match) : Prop where
  ho : o ∈ k.g.ids
  hq : m.q ∈ k.g.ids
  ne : o ≠ m.q
  kindo : k.kind o = .mul
  inlo : (k.g.obj o).inlets = [⟨[m.a], .zero⟩, ⟨[m.b], .zero⟩]
  cases : ∃ s : Conn, s.src = o ∧ s.outlet = 0 ∧ s.isSignal = true ∧
    ((k.kind m.q = .add ∧ m.kind = .fma ∧ (k.g.obj m.q).inlets = [⟨[s], .zero⟩, ⟨[m.c], .zero⟩]) ∨
     (k.kind m.q = .add ∧ m.kind = .fma ∧ (k.g.obj m.q).inlets = [⟨[m.c], .zero⟩, ⟨[s], .zero⟩]) ∨
     (k.kind m.q = .sub ∧ m.kind = .fms ∧ (k.g.obj m.q).inlets = [⟨[s], .zero⟩, ⟨[m.c], .zero⟩]))
  outq : (k.g.obj m.q).outlets = [⟨some .f, (k.g.obj m.q).out0, .zero⟩]
  outo : ∃ cn, (k.g.obj o).outlets = [⟨some .f, cn, .zero⟩]
  sigo : (k.g.obj o).signal = true
  sigq : (k.g.obj m.q).signal = true
  fresh : ∀ p ∈ k.g.ids, p < n
  only : ∀ p ∈ k.g.ids, p ≠ m.q → ∀ l ∈ (k.g.obj p).inlets, ∀ c ∈ l.conns, c.src ≠ o
  co : m.c.src ≠ o
  ao : m.a.src ≠ o
  bo : m.b.src ≠ o
  aq : m.a.src ≠ m.q
  bq : m.b.src ≠ m.q
  cq : m.c.src ≠ m.q

theorem count_two {g : Graph} {p q : Nat} (hp : p ∈ g.ids) (hq : q ∈ g.ids) (hpq : p ≠ q) {x : Nat × Nat} (h1 : x ∈ g.reads p)
    (h2 : x ∈ g.reads q) : 2 ≤ (g.ids.flatMap g.reads).count x := by
  have hsp : List.Subperm [p, q] g.ids := List.Nodup.subperm (by simp [hpq]) (by simp [hp, hq])
  have := subperm_flatMap_count g.reads hsp x
  simp only [List.flatMap_cons, List.flatMap_nil, List.append_nil, List.count_append] at this
  have a := List.count_pos_iff.mpr h1
  have b := List.count_pos_iff.mpr h2
  omega

theorem count_one {g : Graph} {p : Nat} (hp : p ∈ g.ids) (x : Nat × Nat) : (g.reads p).count x ≤ (g.ids.flatMap g.reads).count x := by
  have hsp : List.Subperm [p] g.ids := List.Nodup.subperm (by simp) (by simp [hp])
  have := subperm_flatMap_count g.reads hsp x
  simpa using this

theorem mem_reads {g : Graph} {p : Nat} {l : Inlet} {c : Conn} (hl : l ∈ (g.obj p).inlets) (hc : c ∈ l.conns) (hs : c.isSignal = true) :
    (c.src, c.outlet) ∈ g.reads p :=
  List.mem_flatMap.mpr ⟨l, hl, List.mem_map.mpr ⟨c, List.mem_filter.mpr ⟨hc, hs⟩, rfl⟩⟩

/-- a signal goes from `p` to `o` -/
def SFeeds (g : Graph) (p o : Nat) : Prop := ∃ l ∈ (g.obj o).inlets, ∃ c ∈ l.conns, c.isSignal = true ∧ c.src = p

/-- no cycle of signal connections (cycles that messages close are allowed) -/
def NoSigCycle (g : Graph) : Prop := ∀ o ∈ g.ids, ¬ TransGen (SFeeds g) o o

theorem SFeeds.feeds {g : Graph} {p o : Nat} (h : SFeeds g p o) : Feeds g p o := by
  obtain ⟨l, hl, c, hc, -, e⟩ := h
  exact ⟨l, hl, c, hc, e⟩

theorem NoCycle.sig {g : Graph} (h : NoCycle g) : NoSigCycle g := by
  intro o ho ht
  have key : ∀ b, ReflTransGen (SFeeds g) o b → Reach g o b := by
    intro b hb
    induction hb with
    | refl => exact .refl
    | tail _ h2 ih => exact ih.tail h2.feeds
  obtain ⟨p, h1, l, hl, c, hc, hs, rfl⟩ := TransGen.tail'_iff.mp ht
  exact h o ho _ (mem_reads hl hc hs) (key _ h1)

theorem fmaMatch_fused {k : KGraph} {n o : Nat} {m : Match} (hk : KWF k) (hcyc : NoSigCycle k.g) (hn : ∀ p ∈ k.g.ids, p < n)
    (ho : o ∈ k.g.ids) (h : k.fmaMatch o = some m) : Fused k n o m := by
  unfold KGraph.fmaMatch at h
  split at h
  rotate_left
  · simp at h
  rename_i hmul
  split at h
  rotate_left
  · simp at h
  rename_i a b q i us ha hb hu
  split at h
  rotate_left
  · simp at h
  rename_i hkq
  split at h
  rotate_left
  · simp at h
  rename_i x y hx hy
  have hom : Arith (k.kind o) := Or.inl hmul.1
  have hqa : Arith (k.kind q) := by rcases hkq.1 with h | h; exacts [Or.inr (Or.inl h), Or.inr (Or.inr h.1)]
  obtain ⟨hq, l, hl, s, hs, hso, hs0⟩ := mem_users (g := k.g) (o := o) (q := q) (i := i) (by rw [hu]; simp)
  obtain ⟨lo, ⟨oo, oo1, oo2⟩, so⟩ := hk.arity o ho hom
  obtain ⟨lq, ⟨oq, oq1, oq2⟩, sq⟩ := hk.arity q hq hqa
  obtain ⟨pa, pb, inlo⟩ := two_inlets lo ha hb
  obtain ⟨px, py, inlq⟩ := two_inlets lq hx hy
  have ssig : s.isSignal = true := hk.sig q hq l (List.mem_of_getElem? hl) s hs (by rw [hso]; exact hom)
  -- presets
  have ordo : ∀ r, r ∈ k.g.ids → (k.g.obj r).signal = true → ∀ u v : Conn, ∀ pu pv, (k.g.obj r).inlets = [⟨[u], pu⟩, ⟨[v], pv⟩] →
      (pu = .zero ∧ pv = .zero) ∧ ∀ l ∈ (k.g.obj r).outlets, l.preset = .zero := by
    intro r hr hs u v pu pv hi
    rcases hk.wf.kinds r hr hs with ⟨h1, h2⟩ | ⟨cs, c, h1⟩
    · rw [hi] at h1
      simp at h1
      exact ⟨h1, h2⟩
    · rw [h1, dacObj] at hi
      simp at hi
  obtain ⟨⟨rfl, rfl⟩, po⟩ := ordo o ho so _ _ _ _ inlo
  obtain ⟨⟨rfl, rfl⟩, pq⟩ := ordo q hq sq _ _ _ _ inlq
  have outo : (k.g.obj o).outlets = [⟨some .f, 1, .zero⟩] := by
    have h1 : oo.preset = .zero := po oo (by rw [oo1]; simp)
    have h2 : oo.conns = 1 := by have := hmul.2; rw [Obj.out0, oo1] at this; exact this
    rw [oo1, ← oo2, ← h1, ← h2]
  have outq : (k.g.obj q).outlets = [⟨some .f, (k.g.obj q).out0, .zero⟩] := by
    have h1 : oq.preset = .zero := pq oq (by rw [oq1]; simp)
    have h2 : (k.g.obj q).out0 = oq.conns := by rw [Obj.out0, oq1]
    rw [oq1, ← oq2, ← h1, h2]
  -- only one reader
  have cnt : (k.g.ids.flatMap k.g.reads).count (o, 0) ≤ 1 := hk.wf.count o ho 0 ⟨some .f, 1, .zero⟩ (by rw [outo]; rfl)
  have hrs : (o, 0) ∈ k.g.reads q := by
    have := mem_reads (g := k.g) (p := q) (List.mem_of_getElem? hl) hs ssig
    rwa [hso, hs0] at this
  have from_o : ∀ p ∈ k.g.ids, ∀ l ∈ (k.g.obj p).inlets, ∀ c ∈ l.conns, c.src = o → c.isSignal = true ∧ c.outlet = 0 := by
    intro p hp l hl c hc hco
    have hsg := hk.sig p hp l hl c hc (by rw [hco]; exact hom)
    obtain ⟨-, out, h1, -⟩ := hk.wf.source p hp l hl c hc hsg
    rw [hco, outo] at h1
    refine ⟨hsg, ?_⟩
    cases hcout : c.outlet with
    | zero => rfl
    | succ j => rw [hcout] at h1; simp at h1
  have only : ∀ p ∈ k.g.ids, p ≠ q → ∀ l ∈ (k.g.obj p).inlets, ∀ c ∈ l.conns, c.src ≠ o := by
    intro p hp hpq l hl c hc hco
    obtain ⟨h1, h2⟩ := from_o p hp l hl c hc hco
    have := mem_reads hl hc h1
    rw [hco, h2] at this
    have := count_two hp hq hpq this hrs
    omega
  have oq : o ≠ q := by
    intro e
    refine hcyc q hq (.single ⟨l, List.mem_of_getElem? hl, s, hs, ssig, ?_⟩)
    rw [hso, e]
  have feeds : SFeeds k.g o q := ⟨l, List.mem_of_getElem? hl, s, hs, ssig, hso⟩
  -- the other connection of q does not come from o
  have both : ¬ (x.src = o ∧ y.src = o) := by
    rintro ⟨hxo, hyo⟩
    have h1 := from_o q hq ⟨[x], .zero⟩ (by rw [inlq]; simp) x (by simp) hxo
    have h2 := from_o q hq ⟨[y], .zero⟩ (by rw [inlq]; simp) y (by simp) hyo
    have := count_one (g := k.g) hq (o, 0)
    rw [Graph.reads, inlq] at this
    simp [readsOf, h1.1, h1.2, h2.1, h2.2, hxo, hyo] at this
    omega
  have notq : ∀ c : Conn, (c = a ∨ c = b) → c.src ≠ q ∧ c.src ≠ o := by
    intro c hc
    have hm : ∃ l ∈ (k.g.obj o).inlets, c ∈ l.conns := by
      rw [inlo]
      rcases hc with rfl | rfl
      · exact ⟨⟨[c], .zero⟩, by simp, by simp⟩
      · exact ⟨⟨[c], .zero⟩, by simp, by simp⟩
    obtain ⟨l', hl', hcl⟩ := hm
    constructor
    · intro e
      have hsg := hk.sig o ho l' hl' c hcl (by rw [e]; exact hqa)
      exact hcyc q hq (.tail (.single ⟨l', hl', c, hcl, hsg, e⟩) feeds)
    · intro e
      have hsg := hk.sig o ho l' hl' c hcl (by rw [e]; exact hom)
      exact hcyc o ho (.single ⟨l', hl', c, hcl, hsg, e⟩)
  have notqq : ∀ c : Conn, (c = x ∨ c = y) → c.src ≠ q := by
    intro c hc e
    have hm : ∃ l ∈ (k.g.obj q).inlets, c ∈ l.conns := by
      rw [inlq]
      rcases hc with rfl | rfl
      · exact ⟨⟨[c], .zero⟩, by simp, by simp⟩
      · exact ⟨⟨[c], .zero⟩, by simp, by simp⟩
    obtain ⟨l', hl', hcl⟩ := hm
    have hsg := hk.sig q hq l' hl' c hcl (by rw [e]; exact hqa)
    exact hcyc q hq (.single ⟨l', hl', c, hcl, hsg, e⟩)
  simp only [Option.some.injEq] at h
  -- which inlet
  have hi : (i = 0 ∧ s = x) ∨ (i = 1 ∧ s = y) := by
    rw [inlq] at hl
    match i, hl with
    | 0, hl => simp at hl; subst hl; simp at hs; exact Or.inl ⟨rfl, hs⟩
    | 1, hl => simp at hl; subst hl; simp at hs; exact Or.inr ⟨rfl, hs⟩
    | _ + 2, hl => simp at hl
  rcases hi with ⟨rfl, rfl⟩ | ⟨rfl, rfl⟩
  · simp only [if_true] at h
    subst h
    have hyo : y.src ≠ o := fun e => both ⟨hso, e⟩
    refine ⟨ho, hq, oq, hmul.1, inlo, ⟨s, hso, hs0, ssig, ?_⟩, outq, ⟨1, outo⟩, so, sq, hn, only, hyo, (notq a (Or.inl rfl)).2,
      (notq b (Or.inr rfl)).2, (notq a (Or.inl rfl)).1, (notq b (Or.inr rfl)).1, notqq y (Or.inr rfl)⟩
    rcases hkq.1 with h | ⟨h, -⟩
    · exact Or.inl ⟨h, by simp [h], inlq⟩
    · exact Or.inr (Or.inr ⟨h, by simp [h], inlq⟩)
  · simp only [Nat.one_ne_zero, if_false] at h
    subst h
    have hxo : x.src ≠ o := fun e => both ⟨e, hso⟩
    refine ⟨ho, hq, oq, hmul.1, inlo, ⟨s, hso, hs0, ssig, ?_⟩, outq, ⟨1, outo⟩, so, sq, hn, only, hxo, (notq a (Or.inl rfl)).2,
      (notq b (Or.inr rfl)).2, (notq a (Or.inl rfl)).1, (notq b (Or.inr rfl)).1, notqq x (Or.inl rfl)⟩
    rcases hkq.1 with h | ⟨h, h'⟩
    · exact Or.inr (Or.inl ⟨h, by simp [h], inlq⟩)
    · exact absurd h' (by decide)

/-! ### connections after the replacement -/

/-- the new source of a connection -/
def ren (q n : Nat) (c : Conn) : Conn := if c.src = q then { c with src := n } else c

theorem moveSrc_perm (q n : Nat) (cs : List Conn) : (moveSrc q n cs).Perm (cs.map (ren q n)) := by
  induction cs with
  | nil => exact List.Perm.refl _
  | cons c cs ih =>
    unfold moveSrc at ih ⊢
    by_cases h : c.src = q
    · simp only [List.filter_cons, h, ne_eq, not_true, decide_false, decide_true, if_true, List.map_cons, ren]
      exact List.perm_middle.trans (List.Perm.cons _ ih)
    · simp only [List.filter_cons, h, ne_eq, not_false_eq_true, decide_false, decide_true, if_true, List.map_cons, ren, if_false]
      exact List.Perm.cons _ ih

theorem ren_isSignal (q n : Nat) (c : Conn) : (ren q n c).isSignal = c.isSignal := by unfold ren; split <;> rfl

theorem ren_outlet (q n : Nat) (c : Conn) : (ren q n c).outlet = c.outlet := by unfold ren; split <;> rfl

theorem ren_src (q n : Nat) (c : Conn) : (ren q n c).src = if c.src = q then n else c.src := by unfold ren; split <;> rfl

theorem mem_moveSrc {q n : Nat} {cs : List Conn} {y : Conn} (h : y ∈ moveSrc q n cs) : ∃ c ∈ cs, y = ren q n c := by
  obtain ⟨c, hc, e⟩ := List.mem_map.mp ((moveSrc_perm q n cs).subset h)
  exact ⟨c, hc, e.symm⟩

theorem filter_moveSrc (q n : Nat) (cs : List Conn) :
    ((moveSrc q n cs).filter (·.isSignal)).Perm ((cs.filter (·.isSignal)).map (ren q n)) := by
  refine ((moveSrc_perm q n cs).filter _).trans ?_
  rw [List.filter_map]
  have : ((fun x : Conn => x.isSignal) ∘ ren q n) = fun x => x.isSignal := by
    funext c; exact ren_isSignal q n c
  rw [this]

/-- the same for signals as (object, outlet) -/
def ren2 (q n : Nat) (x : Nat × Nat) : Nat × Nat := (if x.1 = q then n else x.1, x.2)

theorem readsOf_moveSrc (q n : Nat) (ls : List Inlet) :
    (readsOf (ls.map fun l => { l with conns := moveSrc q n l.conns })).Perm ((readsOf ls).map (ren2 q n)) := by
  induction ls with
  | nil => exact List.Perm.refl _
  | cons l ls ih =>
    rw [List.map_cons, reads_cons, reads_cons, List.map_append]
    refine List.Perm.append ?_ ih
    refine ((filter_moveSrc q n l.conns).map _).trans ?_
    rw [List.map_map, List.map_map]
    refine List.Perm.of_eq (List.map_congr_left fun c _ => ?_)
    simp [ren2, ren_src, ren_outlet]

theorem count_ren2_old {q n : Nat} (L : List (Nat × Nat)) (p j : Nat) (h1 : p ≠ n) (h2 : p ≠ q) :
    (L.map (ren2 q n)).count (p, j) = L.count (p, j) := by
  induction L with
  | nil => rfl
  | cons x L ih =>
    rw [List.map_cons, List.count_cons, List.count_cons, ih]
    congr 1
    by_cases e : x = (p, j)
    · subst e; simp [ren2, h2]
    · have : ren2 q n x ≠ (p, j) := by
        intro h
        unfold ren2 at h
        obtain ⟨h3, h4⟩ := Prod.mk.inj h
        split at h3
        · exact h1 h3.symm
        · exact e (Prod.ext h3 h4)
      simp [e, this]

theorem count_ren2_new {q n : Nat} (L : List (Nat × Nat)) (j : Nat) (h : ∀ x ∈ L, x.1 ≠ n) :
    (L.map (ren2 q n)).count (n, j) = L.count (q, j) := by
  induction L with
  | nil => rfl
  | cons x L ih =>
    rw [List.map_cons, List.count_cons, List.count_cons, ih fun y hy => h y (by simp [hy])]
    congr 1
    by_cases e : x = (q, j)
    · subst e; simp [ren2]
    · have : ren2 q n x ≠ (n, j) := by
        intro h'
        unfold ren2 at h'
        obtain ⟨h3, h4⟩ := Prod.mk.inj h'
        split at h3
        · rename_i h5; exact e (Prod.ext h5 h4)
        · exact h x (by simp) h3
      simp [e, this]

namespace Fused
variable {k : KGraph} {n o : Nat} {m : Match}

theorem no (f : Fused k n o m) : n ≠ o := fun e => Nat.lt_irrefl _ (e ▸ f.fresh o f.ho)
theorem nq (f : Fused k n o m) : n ≠ m.q := fun e => Nat.lt_irrefl _ (e ▸ f.fresh _ f.hq)
theorem notmem (f : Fused k n o m) : n ∉ k.g.ids := fun h => Nat.lt_irrefl _ (f.fresh n h)

theorem mem_ids (f : Fused k n o m) {p : Nat} : p ∈ (k.fmaApply n o m).g.ids ↔ (p ∈ k.g.ids ∧ p ≠ o ∧ p ≠ m.q) ∨ p = n := by
  simp only [KGraph.fmaApply, List.mem_filter, List.mem_append, List.mem_singleton, decide_eq_true_eq]
  constructor
  · rintro ⟨h1 | h1, h2⟩
    · exact Or.inl ⟨h1, h2⟩
    · exact Or.inr h1
  · rintro (h | rfl)
    · exact ⟨Or.inl h.1, h.2⟩
    · exact ⟨Or.inr rfl, f.no, f.nq⟩

theorem obj_n (f : Fused k n o m) : (k.fmaApply n o m).g.obj n =
    ⟨[⟨[m.a], .zero⟩, ⟨[m.b], .zero⟩, ⟨[m.c], .zero⟩], [⟨some .f, (k.g.obj m.q).out0, .zero⟩], true⟩ := by
  simp [KGraph.fmaApply]

theorem obj_old (f : Fused k n o m) {p : Nat} (h : p ∈ k.g.ids) : (k.fmaApply n o m).g.obj p = (k.g.obj p).moveSrc m.q n := by
  have : p ≠ n := fun e => f.notmem (e ▸ h)
  simp [KGraph.fmaApply, this]

theorem a_mem (f : Fused k n o m) : ∃ l ∈ (k.g.obj o).inlets, m.a ∈ l.conns := ⟨⟨[m.a], .zero⟩, by rw [f.inlo]; simp, by simp⟩
theorem b_mem (f : Fused k n o m) : ∃ l ∈ (k.g.obj o).inlets, m.b ∈ l.conns := ⟨⟨[m.b], .zero⟩, by rw [f.inlo]; simp, by simp⟩
theorem c_mem (f : Fused k n o m) : ∃ l ∈ (k.g.obj m.q).inlets, m.c ∈ l.conns := by
  obtain ⟨s, -, -, -, h | h | h⟩ := f.cases <;> exact ⟨⟨[m.c], .zero⟩, by rw [h.2.2]; simp, by simp⟩

theorem o_feeds (f : Fused k n o m) : Feeds k.g o m.q := by
  obtain ⟨s, hs, -, -, h | h | h⟩ := f.cases <;> exact ⟨⟨[s], .zero⟩, by rw [h.2.2]; simp, s, by simp, hs⟩

theorem a_feeds (f : Fused k n o m) : Feeds k.g m.a.src o := by
  obtain ⟨l, h1, h2⟩ := f.a_mem
  exact ⟨l, h1, _, h2, rfl⟩
theorem b_feeds (f : Fused k n o m) : Feeds k.g m.b.src o := by
  obtain ⟨l, h1, h2⟩ := f.b_mem
  exact ⟨l, h1, _, h2, rfl⟩
theorem c_feeds (f : Fused k n o m) : Feeds k.g m.c.src m.q := by
  obtain ⟨l, h1, h2⟩ := f.c_mem
  exact ⟨l, h1, _, h2, rfl⟩

/-- a connection at an old object comes from one of the old graph -/
theorem conn_old (f : Fused k n o m) {p : Nat} (h : p ∈ k.g.ids) {l' : Inlet} (hl : l' ∈ ((k.fmaApply n o m).g.obj p).inlets)
    {y : Conn} (hy : y ∈ l'.conns) : ∃ l ∈ (k.g.obj p).inlets, ∃ c ∈ l.conns, y = ren m.q n c := by
  rw [f.obj_old h] at hl
  simp only [Obj.moveSrc, List.mem_map] at hl
  obtain ⟨l, h1, rfl⟩ := hl
  obtain ⟨c, h2, h3⟩ := mem_moveSrc hy
  exact ⟨l, h1, c, h2, h3⟩

/-- a connection at the new object is one of three -/
theorem conn_n (f : Fused k n o m) {l' : Inlet} (hl : l' ∈ ((k.fmaApply n o m).g.obj n).inlets) {y : Conn} (hy : y ∈ l'.conns) :
    y = m.a ∨ y = m.b ∨ y = m.c := by
  rw [f.obj_n] at hl
  simp at hl
  rcases hl with rfl | rfl | rfl <;> simp at hy <;> simp [hy]

theorem reads_n (f : Fused k n o m) : ∀ x, ((k.fmaApply n o m).g.reads n).count x ≤ (k.g.reads o).count x + (k.g.reads m.q).count x := by
  intro x
  rw [Graph.reads, f.obj_n, Graph.reads, f.inlo, Graph.reads]
  obtain ⟨s, -, -, -, h | h | h⟩ := f.cases <;> rw [h.2.2] <;>
    simp only [reads_cons, List.count_append] <;> omega

theorem total (f : Fused k n o m) (hn : k.g.ids.Nodup) (x : Nat × Nat) :
    ∃ rest : List Nat, (∀ p ∈ rest, p ∈ k.g.ids) ∧
    ((k.fmaApply n o m).g.ids.flatMap (k.fmaApply n o m).g.reads).count x =
      ((rest.flatMap k.g.reads).map (ren2 m.q n)).count x + ((k.fmaApply n o m).g.reads n).count x ∧
    ∀ y, (rest.flatMap k.g.reads).count y + (k.g.reads o).count y + (k.g.reads m.q).count y = (k.g.ids.flatMap k.g.reads).count y := by
  let rest := k.g.ids.filter fun p => p ≠ o ∧ p ≠ m.q
  have hids : (k.fmaApply n o m).g.ids = rest ++ [n] := by
    simp only [KGraph.fmaApply, List.filter_append, rest]
    simp [f.no, f.nq]
  have hr : ∀ p ∈ rest, p ∈ k.g.ids := fun p hp => (List.mem_filter.mp hp).1
  have hperm : k.g.ids.Perm (o :: m.q :: rest) := by
    refine (List.perm_ext_iff_of_nodup hn ?_).mpr fun p => ?_
    · refine List.nodup_cons.mpr ⟨?_, List.nodup_cons.mpr ⟨?_, hn.filter _⟩⟩
      · simp [rest, f.ne]
      · simp [rest]
    · simp only [List.mem_cons, rest, List.mem_filter, decide_eq_true_eq]
      constructor
      · intro hp
        by_cases e : p = o
        · exact Or.inl e
        · by_cases e' : p = m.q
          · exact Or.inr (Or.inl e')
          · exact Or.inr (Or.inr ⟨hp, e, e'⟩)
      · rintro (rfl | rfl | h)
        · exact f.ho
        · exact f.hq
        · exact h.1
  refine ⟨rest, hr, ?_, fun y => ?_⟩
  · rw [hids, List.flatMap_append, List.count_append]
    simp only [List.flatMap_cons, List.flatMap_nil, List.append_nil]
    congr 1
    clear hids hperm
    clear_value rest
    induction rest with
    | nil => rfl
    | cons p rest ih =>
      rw [List.flatMap_cons, List.flatMap_cons, List.map_append, List.count_append, List.count_append,
        ih fun p hp => hr p (by simp [hp])]
      congr 1
      rw [Graph.reads, f.obj_old (hr p (by simp)), Obj.moveSrc, Graph.reads]
      exact (readsOf_moveSrc m.q n _).count_eq x
  · have := (List.Perm.flatMap_right k.g.reads hperm).count_eq y
    rw [this]
    simp only [List.flatMap_cons, List.count_append]
    omega

theorem reads_closed {g : Graph} (w : WF g) {p : Nat} (hp : p ∈ g.ids) {x : Nat × Nat} (hx : x ∈ g.reads p) : x.1 ∈ g.ids := by
  obtain ⟨l, hl, hm⟩ := List.mem_flatMap.mp hx
  obtain ⟨c, hc, rfl⟩ := List.mem_map.mp hm
  obtain ⟨h1, h2⟩ := List.mem_filter.mp hc
  exact (w.source p hp l hl c h1 h2).1

theorem wf (f : Fused k n o m) (w : WF k.g) : WF (k.fmaApply n o m).g := by
  -- sources of connections
  have src : ∀ p ∈ k.g.ids, ∀ l ∈ (k.g.obj p).inlets, ∀ c ∈ l.conns, c.isSignal → c.src ≠ o → c.src ≠ m.q →
      c.src ∈ (k.fmaApply n o m).g.ids ∧ ∃ out, ((k.fmaApply n o m).g.obj c.src).outlets[c.outlet]? = some out ∧
      ((((k.fmaApply n o m).g.obj c.src).signal = true ∧ out.ty ≠ none ∧ out.preset = .zero) ∨
       (((k.fmaApply n o m).g.obj c.src).signal = false ∧ ∃ ch, out.preset = .input ch)) := by
    intro p hp l hl c hc hs h1 h2
    obtain ⟨h3, h4⟩ := w.source p hp l hl c hc hs
    refine ⟨f.mem_ids.mpr (Or.inl ⟨h3, h1, h2⟩), ?_⟩
    rw [f.obj_old h3]
    exact h4
  refine ⟨?_, fun p hp hs => ?_, fun p hp l hl => ?_, fun p hp l hl y hy hys => ?_, fun p j out h => ?_, fun p hp j out h => ?_⟩
  · simp only [KGraph.fmaApply]
    refine List.Nodup.filter _ (List.nodup_append.mpr ⟨w.nodup, by simp, fun a ha b hb => ?_⟩)
    simp at hb; subst hb
    exact fun e => f.notmem (e ▸ ha)
  · rcases f.mem_ids.mp hp with ⟨hp, -⟩ | rfl
    · rw [f.obj_old hp] at hs ⊢
      rcases w.kinds p hp hs with ⟨h1, h2⟩ | ⟨conns, c, h⟩
      · refine Or.inl ⟨fun l hl => ?_, h2⟩
        simp only [Obj.moveSrc, List.mem_map] at hl
        obtain ⟨l', hl', rfl⟩ := hl
        exact h1 l' hl'
      · exact Or.inr ⟨moveSrc m.q n conns, c, by rw [h]; rfl⟩
    · left
      rw [f.obj_n]
      simp
  · rcases f.mem_ids.mp hp with ⟨hp, -⟩ | rfl
    · rw [f.obj_old hp] at hl
      simp only [Obj.moveSrc, List.mem_map] at hl
      obtain ⟨l', hl', rfl⟩ := hl
      rw [(filter_moveSrc m.q n l'.conns).length_eq, List.length_map]
      exact w.one p hp l' hl'
    · rw [f.obj_n] at hl
      simp at hl
      rcases hl with rfl | rfl | rfl <;> exact (List.length_filter_le _ _).trans (by simp)
  · rcases f.mem_ids.mp hp with ⟨hp, hpo, hpq⟩ | rfl
    · obtain ⟨l0, hl0, c, hc, rfl⟩ := f.conn_old hp hl hy
      have hco := f.only p hp hpq l0 hl0 c hc
      rw [ren_isSignal] at hys
      by_cases e : c.src = m.q
      · obtain ⟨-, out, h1, h2⟩ := w.source p hp l0 hl0 c hc hys
        have h0 : c.outlet = 0 := by
          rw [e, f.outq] at h1
          cases hcout : c.outlet with
          | zero => rfl
          | succ j => rw [hcout] at h1; simp at h1
        rw [ren_src, ren_outlet, if_pos e, f.obj_n, h0]
        exact ⟨f.mem_ids.mpr (Or.inr rfl), _, rfl, Or.inl (by simp)⟩
      · have : ren m.q n c = c := by simp [ren, e]
        rw [this]
        exact src p hp l0 hl0 c hc hys hco e
    · rcases f.conn_n hl hy with rfl | rfl | rfl
      · obtain ⟨l, h1, h2⟩ := f.a_mem
        exact src o f.ho l h1 _ h2 hys f.ao f.aq
      · obtain ⟨l, h1, h2⟩ := f.b_mem
        exact src o f.ho l h1 _ h2 hys f.bo f.bq
      · obtain ⟨l, h1, h2⟩ := f.c_mem
        exact src m.q f.hq l h1 _ h2 hys f.co f.cq
  · by_cases e : p = n
    · subst e
      rw [f.obj_n] at h
      cases j with
      | zero => simp at h; subst h; simp
      | succ j => simp at h
    · have : (k.fmaApply n o m).g.obj p = (k.g.obj p).moveSrc m.q n := by simp [KGraph.fmaApply, e]
      rw [this] at h
      exact w.presets p j out h
  · obtain ⟨rest, hrest, h1, h2⟩ := f.total w.nodup (p, j)
    rw [h1]
    have hrn := f.reads_n (p, j)
    rcases f.mem_ids.mp hp with ⟨hp, hpo, hpq⟩ | rfl
    · rw [f.obj_old hp] at h
      have hpn : p ≠ n := fun e => f.notmem (e ▸ hp)
      rw [count_ren2_old _ _ _ hpn hpq]
      have := h2 (p, j)
      have := w.count p hp j out h
      omega
    · rw [f.obj_n] at h
      cases j with
      | succ j => simp at h
      | zero =>
        simp at h
        subst h
        have hnone : ∀ x ∈ rest.flatMap k.g.reads, x.1 ≠ p := by
          intro x hx e
          obtain ⟨r, hr, hx⟩ := List.mem_flatMap.mp hx
          exact f.notmem (e ▸ reads_closed w (hrest r hr) hx)
        rw [count_ren2_new _ _ hnone]
        have z : ∀ r ∈ k.g.ids, (k.g.reads r).count (p, 0) = 0 := by
          intro r hr
          exact List.count_eq_zero.mpr fun hx => f.notmem (reads_closed w hr hx)
        rw [z o f.ho, z m.q f.hq] at hrn
        have h3 := h2 (m.q, 0)
        have h4 := w.count m.q f.hq 0 ⟨some .f, (k.g.obj m.q).out0, .zero⟩ (by rw [f.outq]; rfl)
        simp only at h4 ⊢
        omega

theorem closed (f : Fused k n o m) (w : Closed k.g) : Closed (k.fmaApply n o m).g := by
  intro p hp r hr
  obtain ⟨l, hl, y, hy, rfl⟩ := hr
  rcases f.mem_ids.mp hp with ⟨hp, hpo, hpq⟩ | rfl
  · obtain ⟨l0, hl0, c, hc, rfl⟩ := f.conn_old hp hl hy
    rw [ren_src]
    split
    · exact f.mem_ids.mpr (Or.inr rfl)
    · rename_i e
      exact f.mem_ids.mpr (Or.inl ⟨w p hp _ ⟨l0, hl0, c, hc, rfl⟩, f.only p hp hpq l0 hl0 c hc, e⟩)
  · rcases f.conn_n hl hy with rfl | rfl | rfl
    · exact f.mem_ids.mpr (Or.inl ⟨w o f.ho _ f.a_feeds, f.ao, f.aq⟩)
    · exact f.mem_ids.mpr (Or.inl ⟨w o f.ho _ f.b_feeds, f.bo, f.bq⟩)
    · exact f.mem_ids.mpr (Or.inl ⟨w m.q f.hq _ f.c_feeds, f.co, f.cq⟩)

/-- the object of the old graph that a path passes -/
def back (m : Match) (n p : Nat) : Nat := if p = n then m.q else p

theorem back_old {p : Nat} (f : Fused k n o m) (h : p ∈ k.g.ids) : back m n p = p := by
  have : p ≠ n := fun e => f.notmem (e ▸ h)
  simp [back, this]

theorem reach (f : Fused k n o m) (w : Closed k.g) {a b : Nat} (h : Reach (k.fmaApply n o m).g a b)
    (hb : b ∈ (k.fmaApply n o m).g.ids) : Reach k.g (back m n a) (back m n b) := by
  induction h with
  | refl => exact .refl
  | @tail b b' h1 h2 ih =>
    have hb1 := f.closed w _ hb _ h2
    refine (ih hb1).trans ?_
    obtain ⟨l, hl, y, hy, rfl⟩ := h2
    rcases f.mem_ids.mp hb with ⟨hb, hbo, hbq⟩ | rfl
    · obtain ⟨l0, hl0, c, hc, rfl⟩ := f.conn_old hb hl hy
      rw [f.back_old hb, ren_src]
      split
      · rename_i e
        simp only [back, if_true]
        exact .single ⟨l0, hl0, c, hc, e⟩
      · have hcs := w _ hb _ ⟨l0, hl0, c, hc, rfl⟩
        rw [f.back_old hcs]
        exact .single ⟨l0, hl0, c, hc, rfl⟩
    · have bn : back m b' b' = m.q := by simp [back]
      rw [bn]
      rcases f.conn_n hl hy with rfl | rfl | rfl
      · rw [f.back_old (w o f.ho _ f.a_feeds)]
        exact (ReflTransGen.single f.a_feeds).tail f.o_feeds
      · rw [f.back_old (w o f.ho _ f.b_feeds)]
        exact (ReflTransGen.single f.b_feeds).tail f.o_feeds
      · rw [f.back_old (w m.q f.hq _ f.c_feeds)]
        exact .single f.c_feeds

theorem nocycle (f : Fused k n o m) (w : Closed k.g) (h : NoCycle k.g) : NoCycle (k.fmaApply n o m).g := by
  intro p hp pk hpk hr
  obtain ⟨l, hl, hm⟩ := List.mem_flatMap.mp hpk
  obtain ⟨y, hy, rfl⟩ := List.mem_map.mp hm
  obtain ⟨hy, hys⟩ := List.mem_filter.mp hy
  have hsrc := f.closed w p hp _ ⟨l, hl, y, hy, rfl⟩
  have hr' := f.reach w hr hsrc
  rcases f.mem_ids.mp hp with ⟨hp, hpo, hpq⟩ | rfl
  · obtain ⟨l0, hl0, c, hc, rfl⟩ := f.conn_old hp hl hy
    rw [ren_isSignal] at hys
    refine h p hp _ (mem_reads hl0 hc hys) ?_
    rw [f.back_old hp] at hr'
    simp only [ren_src] at hr'
    split at hr'
    · rename_i e
      simp only [back, if_true] at hr'
      simpa [e] using hr'
    · rwa [f.back_old (w p hp _ ⟨l0, hl0, c, hc, rfl⟩)] at hr'
  · have bn : back m p p = m.q := by simp [back]
    rw [bn] at hr'
    rcases f.conn_n hl hy with rfl | rfl | rfl
    · obtain ⟨l0, hl0, hc⟩ := f.a_mem
      simp only at hr'
      rw [f.back_old (w o f.ho _ f.a_feeds)] at hr'
      exact h o f.ho _ (mem_reads hl0 hc hys) (ReflTransGen.head f.o_feeds hr')
    · obtain ⟨l0, hl0, hc⟩ := f.b_mem
      simp only at hr'
      rw [f.back_old (w o f.ho _ f.b_feeds)] at hr'
      exact h o f.ho _ (mem_reads hl0 hc hys) (ReflTransGen.head f.o_feeds hr')
    · obtain ⟨l0, hl0, hc⟩ := f.c_mem
      simp only at hr'
      rw [f.back_old (w m.q f.hq _ f.c_feeds)] at hr'
      exact h m.q f.hq _ (mem_reads hl0 hc hys) hr'

theorem sfeeds (f : Fused k n o m) (w : Closed k.g) {a b : Nat} (hb : b ∈ (k.fmaApply n o m).g.ids) (h : SFeeds (k.fmaApply n o m).g a b) :
    TransGen (SFeeds k.g) (back m n a) (back m n b) := by
  obtain ⟨l, hl, y, hy, hys, rfl⟩ := h
  have oq : SFeeds k.g o m.q := by
    obtain ⟨s, h1, -, h3, h | h | h⟩ := f.cases
    · exact ⟨⟨[s], .zero⟩, by rw [h.2.2]; simp, s, by simp, h3, h1⟩
    · exact ⟨⟨[s], .zero⟩, by rw [h.2.2]; simp, s, by simp, h3, h1⟩
    · exact ⟨⟨[s], .zero⟩, by rw [h.2.2]; simp, s, by simp, h3, h1⟩
  rcases f.mem_ids.mp hb with ⟨hb, hbo, hbq⟩ | rfl
  · obtain ⟨l0, hl0, c, hc, rfl⟩ := f.conn_old hb hl hy
    rw [ren_isSignal] at hys
    rw [f.back_old hb, ren_src]
    split
    · rename_i e
      simp only [back, if_true]
      exact .single ⟨l0, hl0, c, hc, hys, e⟩
    · rw [f.back_old (w _ hb _ ⟨l0, hl0, c, hc, rfl⟩)]
      exact .single ⟨l0, hl0, c, hc, hys, rfl⟩
  · have bn : back m b b = m.q := by simp [back]
    rw [bn]
    rcases f.conn_n hl hy with rfl | rfl | rfl
    · obtain ⟨l0, hl0, hc⟩ := f.a_mem
      rw [f.back_old (w o f.ho _ f.a_feeds)]
      exact .tail (.single ⟨l0, hl0, _, hc, hys, rfl⟩) oq
    · obtain ⟨l0, hl0, hc⟩ := f.b_mem
      rw [f.back_old (w o f.ho _ f.b_feeds)]
      exact .tail (.single ⟨l0, hl0, _, hc, hys, rfl⟩) oq
    · obtain ⟨l0, hl0, hc⟩ := f.c_mem
      rw [f.back_old (w m.q f.hq _ f.c_feeds)]
      exact .single ⟨l0, hl0, _, hc, hys, rfl⟩

theorem nosig (f : Fused k n o m) (w : Closed k.g) (h : NoSigCycle k.g) : NoSigCycle (k.fmaApply n o m).g := by
  have key : ∀ a b, b ∈ (k.fmaApply n o m).g.ids → TransGen (SFeeds (k.fmaApply n o m).g) a b →
      TransGen (SFeeds k.g) (back m n a) (back m n b) := by
    intro a b hb ht
    induction ht with
    | single h1 => exact f.sfeeds w hb h1
    | tail _ h1 ih => exact (ih (f.closed w _ hb _ h1.feeds)).trans (f.sfeeds w hb h1)
  intro p hp ht
  refine h (back m n p) ?_ (key p p hp ht)
  rcases f.mem_ids.mp hp with ⟨hp, -⟩ | rfl
  · rw [f.back_old hp]; exact hp
  · simp only [back, if_true]; exact f.hq

theorem kwf (f : Fused k n o m) (w : KWF k) : KWF (k.fmaApply n o m) := by
  have hkn : (k.fmaApply n o m).kind n = m.kind := by simp [KGraph.fmaApply]
  have hmk : ¬ Arith m.kind := by
    obtain ⟨s, -, -, -, h | h | h⟩ := f.cases <;> rw [h.2.1] <;> simp [Arith]
  have hko : ∀ p ∈ k.g.ids, (k.fmaApply n o m).kind p = k.kind p := by
    intro p hp
    have : p ≠ n := fun e => f.notmem (e ▸ hp)
    simp [KGraph.fmaApply, this]
  refine ⟨f.wf w.wf, fun p hp ha => ?_, fun p hp l hl y hy ha => ?_⟩
  · rcases f.mem_ids.mp hp with ⟨hp, -⟩ | rfl
    · rw [hko p hp] at ha
      rw [f.obj_old hp]
      simpa [Obj.moveSrc] using w.arity p hp ha
    · rw [hkn] at ha; exact absurd ha hmk
  · have hyn : y.src ≠ n := by
      intro e
      rw [e, hkn] at ha
      exact hmk ha
    have hk' : ∀ r, r ≠ n → (k.fmaApply n o m).kind r = k.kind r := fun r hr => by simp [KGraph.fmaApply, hr]
    rw [hk' _ hyn] at ha
    rcases f.mem_ids.mp hp with ⟨hp, hpo, hpq⟩ | rfl
    · obtain ⟨l0, hl0, c, hc, rfl⟩ := f.conn_old hp hl hy
      rw [ren_isSignal]
      rw [ren_src] at hyn ha
      split at hyn
      · exact absurd rfl hyn
      · rename_i e
        rw [if_neg e] at ha
        exact w.sig p hp l0 hl0 c hc ha
    · rcases f.conn_n hl hy with rfl | rfl | rfl
      · obtain ⟨l, h1, h2⟩ := f.a_mem
        exact w.sig o f.ho l h1 _ h2 ha
      · obtain ⟨l, h1, h2⟩ := f.b_mem
        exact w.sig o f.ho l h1 _ h2 ha
      · obtain ⟨l, h1, h2⟩ := f.c_mem
        exact w.sig m.q f.hq l h1 _ h2 ha

/-! ### signals -/

section
variable [CommRing α]

theorem inletSum_move (q n : Nat) (env env' : Nat → Nat → α) (l : Inlet)
    (h : ∀ c ∈ l.conns, c.isSignal = true → env' (ren q n c).src c.outlet = env c.src c.outlet) :
    inletSum env' { l with conns := moveSrc q n l.conns } = inletSum env l := by
  unfold inletSum
  refine (((filter_moveSrc q n l.conns).map _).sum_eq).trans ?_
  rw [List.map_map]
  congr 1
  refine List.map_congr_left fun c hc => ?_
  obtain ⟨h1, h2⟩ := List.mem_filter.mp hc
  simp only [Function.comp, ren_outlet]
  exact h c h1 h2

/-- objects that remain are given the same signals -/
theorem vals (f : Fused k n o m) (w : WF k.g) (env env' : Nat → Nat → α) (hn : env' n 0 = env m.q 0)
    (hold : ∀ p ∈ k.g.ids, p ≠ o → p ≠ m.q → ∀ j, env' p j = env p j) {p : Nat} (hp : p ∈ k.g.ids) (hpq : p ≠ m.q) :
    ((k.fmaApply n o m).g.obj p).inlets.map (inletVal env') = (k.g.obj p).inlets.map (inletVal env) := by
  rw [f.obj_old hp]
  simp only [Obj.moveSrc, List.map_map]
  refine List.map_congr_left fun l hl => ?_
  have h1 := w.one p hp l hl
  simp only [Function.comp]
  rw [inletVal_eq env l h1, inletVal_eq env' _ (by rw [(filter_moveSrc m.q n l.conns).length_eq, List.length_map]; exact h1)]
  refine inletSum_move m.q n env env' l fun c hc hs => ?_
  rw [ren_src]
  obtain ⟨hcs, out, h3, -⟩ := w.source p hp l hl c hc hs
  split
  · rename_i e
    rw [e, f.outq] at h3
    have h0 : c.outlet = 0 := by
      cases hcout : c.outlet with
      | zero => rfl
      | succ j => rw [hcout] at h3; simp at h3
    rw [h0, hn, e]
  · rename_i e
    exact hold c.src hcs (f.only p hp hpq l hl c hc) e c.outlet

/-- a single connection -/
theorem inletVal_one (env : Nat → Nat → α) (c : Conn) : inletVal env ⟨[c], .zero⟩ = if c.isSignal then env c.src c.outlet else 0 := by
  cases h : c.isSignal <;> simp [inletVal, h]

/-- the values at the new object -/
theorem vals_n (f : Fused k n o m) (env : Nat → Nat → α) : ((k.fmaApply n o m).g.obj n).inlets.map (inletVal env) =
    [inletVal env ⟨[m.a], .zero⟩, inletVal env ⟨[m.b], .zero⟩, inletVal env ⟨[m.c], .zero⟩] := by
  rw [f.obj_n]; rfl

/-- the value of the new object, if the old ones have the right values -/
theorem value (f : Fused k n o m) (F : Nat → List α → List α) (hF : Interp (k.fmaApply n o m).kind (n + 1) F) (env : Nat → Nat → α)
    (hprod : env o 0 = inletVal env ⟨[m.a], .zero⟩ * inletVal env ⟨[m.b], .zero⟩) :
    F n [inletVal env ⟨[m.a], .zero⟩, inletVal env ⟨[m.b], .zero⟩, inletVal env ⟨[m.c], .zero⟩] =
      F m.q ((k.g.obj m.q).inlets.map (inletVal env)) ∧ (F m.q ((k.g.obj m.q).inlets.map (inletVal env))).length = 1 := by
  have hkn : (k.fmaApply n o m).kind n = m.kind := by simp [KGraph.fmaApply]
  have hkq : (k.fmaApply n o m).kind m.q = k.kind m.q := by simp [KGraph.fmaApply, Ne.symm f.nq]
  have hql : m.q < n + 1 := by have := f.fresh _ f.hq; omega
  obtain ⟨s, hs, hs0, hss, h | h | h⟩ := f.cases
  · rw [h.2.2]
    have e : inletVal env ⟨[s], .zero⟩ = env o 0 := by rw [inletVal_one, hss, hs, hs0]; rfl
    simp only [List.map_cons, List.map_nil, e]
    rw [hF.fma n (by omega) (by rw [hkn, h.2.1]), hF.add m.q hql (by rw [hkq, h.1]), hprod]
    exact ⟨rfl, rfl⟩
  · rw [h.2.2]
    have e : inletVal env ⟨[s], .zero⟩ = env o 0 := by rw [inletVal_one, hss, hs, hs0]; rfl
    simp only [List.map_cons, List.map_nil, e]
    rw [hF.fma n (by omega) (by rw [hkn, h.2.1]), hF.add m.q hql (by rw [hkq, h.1]), hprod, add_comm]
    exact ⟨rfl, rfl⟩
  · rw [h.2.2]
    have e : inletVal env ⟨[s], .zero⟩ = env o 0 := by rw [inletVal_one, hss, hs, hs0]; rfl
    simp only [List.map_cons, List.map_nil, e]
    rw [hF.fms n (by omega) (by rw [hkn, h.2.1]), hF.sub m.q hql (by rw [hkq, h.1]), hprod]
    exact ⟨rfl, rfl⟩

theorem dac_none_o (f : Fused k n o m) : dacChan (k.g.obj o) = none := by
  obtain ⟨cn, h⟩ := f.outo
  simp [dacChan, h]

theorem dac_none_q (f : Fused k n o m) : dacChan (k.g.obj m.q) = none := by simp [dacChan, f.outq]

theorem mulF (f : Fused k n o m) (F : Nat → List α → List α) (hF : Interp (k.fmaApply n o m).kind (n + 1) F) (env : Nat → Nat → α) :
    F o ((k.g.obj o).inlets.map (inletVal env)) = [inletVal env ⟨[m.a], .zero⟩ * inletVal env ⟨[m.b], .zero⟩] := by
  rw [f.inlo]
  have : (k.fmaApply n o m).kind o = .mul := by simp [KGraph.fmaApply, Ne.symm f.no, f.kindo]
  have hol := f.fresh o f.ho
  exact hF.mul o (by omega) this _ _

theorem fwd (f : Fused k n o m) (w : WF k.g) (F : Nat → List α → List α) (hF : Interp (k.fmaApply n o m).kind (n + 1) F)
    (inp : Nat → α) (env : Nat → Nat → α) (flow : Flow k.g F inp env) :
    ∃ env', (∀ p, p < n → env' p = env p) ∧ Flow (k.fmaApply n o m).g F inp env' ∧
      ∀ p ∈ k.g.ids, p ≠ m.q → ((k.fmaApply n o m).g.obj p).inlets.map (inletVal env') = (k.g.obj p).inlets.map (inletVal env) := by
  let env' : Nat → Nat → α := fun p => if p = n then env m.q else env p
  have hv : ∀ p ∈ k.g.ids, p ≠ m.q →
      ((k.fmaApply n o m).g.obj p).inlets.map (inletVal env') = (k.g.obj p).inlets.map (inletVal env) := by
    intro p hp hpq
    refine f.vals w env env' (by simp [env']) (fun r hr _ _ j => ?_) hp hpq
    have : r ≠ n := fun e => f.notmem (e ▸ hr)
    simp [env', this]
  have hsame : ∀ r ∈ k.g.ids, ∀ l ∈ (k.g.obj r).inlets, ∀ c ∈ l.conns, inletVal env' ⟨[c], .zero⟩ = inletVal env ⟨[c], .zero⟩ := by
    intro r hr l hl c hc
    rw [inletVal_one, inletVal_one]
    cases hs : c.isSignal with
    | false => rfl
    | true =>
      have := (w.source r hr l hl c hc hs).1
      have : c.src ≠ n := fun e => f.notmem (e ▸ this)
      simp [env', this]
  refine ⟨env', fun p hp => ?_, ⟨fun p hp j out ch h h' => ?_, fun p hp hs hd j v hv' => ?_⟩, hv⟩
  · have : p ≠ n := by omega
    simp [env', this]
  · rcases f.mem_ids.mp hp with ⟨hp, -⟩ | rfl
    · have : p ≠ n := fun e => f.notmem (e ▸ hp)
      simp only [env', if_neg this]
      rw [f.obj_old hp] at h
      exact flow.ext p hp j out ch h h'
    · rw [f.obj_n] at h
      cases j with
      | zero => simp at h; subst h; simp at h'
      | succ j => simp at h
  · rcases f.mem_ids.mp hp with ⟨hp, hpo, hpq⟩ | rfl
    · have : p ≠ n := fun e => f.notmem (e ▸ hp)
      simp only [env', if_neg this]
      rw [hv p hp hpq] at hv'
      rw [f.obj_old hp] at hs hd
      exact flow.obj p hp hs hd j v hv'
    · simp only [env', if_true]
      obtain ⟨la, a1, a2⟩ := f.a_mem
      obtain ⟨lb, b1, b2⟩ := f.b_mem
      obtain ⟨lc, c1, c2⟩ := f.c_mem
      have hprod : env o 0 = inletVal env ⟨[m.a], .zero⟩ * inletVal env ⟨[m.b], .zero⟩ :=
        flow.obj o f.ho f.sigo f.dac_none_o 0 _ (by rw [f.mulF F hF]; rfl)
      rw [f.vals_n, hsame o f.ho la a1 _ a2, hsame o f.ho lb b1 _ b2, hsame m.q f.hq lc c1 _ c2, (f.value F hF env hprod).1] at hv'
      exact flow.obj m.q f.hq f.sigq f.dac_none_q j v hv'

theorem bwd (f : Fused k n o m) (w : WF k.g) (F : Nat → List α → List α) (hF : Interp (k.fmaApply n o m).kind (n + 1) F)
    (inp : Nat → α) (env' : Nat → Nat → α) (flow : Flow (k.fmaApply n o m).g F inp env') :
    ∃ env, (∀ p ∈ k.g.ids, p ≠ o → p ≠ m.q → env p = env' p) ∧ Flow k.g F inp env := by
  let env : Nat → Nat → α := fun p => if p = o then fun _ => inletVal env' ⟨[m.a], .zero⟩ * inletVal env' ⟨[m.b], .zero⟩
    else if p = m.q then env' n else env' p
  have henv : ∀ p, p ≠ o → p ≠ m.q → env p = env' p := fun p h1 h2 => by simp [env, h1, h2]
  have hq : env m.q = env' n := by simp [env, Ne.symm f.ne]
  have hv : ∀ p ∈ k.g.ids, p ≠ m.q →
      ((k.fmaApply n o m).g.obj p).inlets.map (inletVal env') = (k.g.obj p).inlets.map (inletVal env) := by
    intro p hp hpq
    exact f.vals w env env' (by rw [hq]) (fun r hr h1 h2 j => by rw [henv r h1 h2]) hp hpq
  have hsame : ∀ c : Conn, c.src ≠ o → c.src ≠ m.q → inletVal env ⟨[c], .zero⟩ = inletVal env' ⟨[c], .zero⟩ := by
    intro c h1 h2
    rw [inletVal_one, inletVal_one, henv _ h1 h2]
  refine ⟨env, fun p _ h1 h2 => henv p h1 h2, ⟨fun p hp j out ch h h' => ?_, fun p hp hs hd j v hv' => ?_⟩⟩
  · by_cases e : p = o
    · subst e
      obtain ⟨cn, ho⟩ := f.outo
      rw [ho] at h
      cases j with
      | zero => simp at h; subst h; simp at h'
      | succ j => simp at h
    · by_cases e' : p = m.q
      · rw [e', f.outq] at h
        cases j with
        | zero => simp at h; subst h; simp at h'
        | succ j => simp at h
      · rw [henv p e e']
        refine flow.ext p (f.mem_ids.mpr (Or.inl ⟨hp, e, e'⟩)) j out ch ?_ h'
        rw [f.obj_old hp]
        exact h
  · have hprod : env o 0 = inletVal env ⟨[m.a], .zero⟩ * inletVal env ⟨[m.b], .zero⟩ := by
      rw [hsame _ f.ao f.aq, hsame _ f.bo f.bq]
      simp [env]
    by_cases e : p = o
    · subst e
      rw [f.mulF F hF] at hv'
      cases j with
      | zero => simp at hv'; rw [← hv']; exact hprod
      | succ j => simp at hv'
    · by_cases e' : p = m.q
      · rw [e'] at hv' ⊢
        rw [hq]
        rw [← (f.value F hF env hprod).1, hsame _ f.ao f.aq, hsame _ f.bo f.bq, hsame _ f.co f.cq, ← f.vals_n env'] at hv'
        exact flow.obj n (f.mem_ids.mpr (Or.inr rfl)) (by rw [f.obj_n]) (by simp [f.obj_n, dacChan]) j v hv'
      · rw [henv p e e']
        rw [← hv p hp e'] at hv'
        refine flow.obj p (f.mem_ids.mpr (Or.inl ⟨hp, e, e'⟩)) ?_ ?_ j v hv'
        · rw [f.obj_old hp]; exact hs
        · rw [f.obj_old hp]; exact hd

end

end Fused

/-- a leaf can be reached (from leaves the compiler starts) -/
def Leads (g : Graph) (o : Nat) : Prop := ∃ leaf ∈ g.ids, Leaf g leaf ∧ Reach g o leaf

/-- paths remain -/
theorem Fused.paths {k : KGraph} {n o : Nat} {m : Match} (f : Fused k n o m) (c : Closed k.g) : ∀ a b, b ∈ k.g.ids → Reach k.g a b →
    Reach (k.fmaApply n o m).g (if a = o ∨ a = m.q then n else a) (if b = o ∨ b = m.q then n else b) := by
  intro a b hb h
  induction h with
  | refl => exact .refl
  | @tail b b' h1 h2 ih =>
    refine (ih (c _ hb _ h2)).trans ?_
    have hn : ∀ y, (y = m.a ∨ y = m.b ∨ y = m.c) → Feeds (k.fmaApply n o m).g y.src n := by
      rintro y (rfl | rfl | rfl)
      · exact ⟨⟨[m.a], .zero⟩, by rw [f.obj_n]; simp, m.a, by simp, rfl⟩
      · exact ⟨⟨[m.b], .zero⟩, by rw [f.obj_n]; simp, m.b, by simp, rfl⟩
      · exact ⟨⟨[m.c], .zero⟩, by rw [f.obj_n]; simp, m.c, by simp, rfl⟩
    obtain ⟨l, hl, y, hy, rfl⟩ := h2
    by_cases e : b' = o
    · subst e
      rw [f.inlo] at hl
      simp only [List.mem_cons, List.not_mem_nil, or_false] at hl
      rcases hl with rfl | rfl <;> simp only [List.mem_cons, List.not_mem_nil, or_false] at hy <;> subst hy
      · rw [if_neg (by simp [f.ao, f.aq]), if_pos (Or.inl rfl)]
        exact .single (hn _ (Or.inl rfl))
      · rw [if_neg (by simp [f.bo, f.bq]), if_pos (Or.inl rfl)]
        exact .single (hn _ (Or.inr (Or.inl rfl)))
    by_cases e' : b' = m.q
    · subst e'
      rw [if_pos (Or.inr rfl)]
      obtain ⟨s, hs, -, -, hi⟩ := f.cases
      have : y = s ∨ y = m.c := by
        rcases hi with ⟨-, -, hi⟩ | ⟨-, -, hi⟩ | ⟨-, -, hi⟩ <;> rw [hi] at hl <;>
          simp only [List.mem_cons, List.not_mem_nil, or_false] at hl <;>
          rcases hl with rfl | rfl <;> simp only [List.mem_cons, List.not_mem_nil, or_false] at hy <;> simp [hy]
      rcases this with rfl | rfl
      · rw [if_pos (Or.inl hs)]
      · rw [if_neg (by simp [f.co, f.cq])]
        exact .single (hn _ (Or.inr (Or.inr rfl)))
    have hyo := f.only b' hb e' l hl y hy
    rw [if_neg (show ¬ (b' = o ∨ b' = m.q) by simp [e, e'])]
    refine .single ?_
    refine ⟨{ l with conns := moveSrc m.q n l.conns }, ?_, ren m.q n y, (moveSrc_perm _ _ _).symm.subset (List.mem_map_of_mem hy), ?_⟩
    · rw [f.obj_old hb]
      exact List.mem_map.mpr ⟨l, hl, rfl⟩
    · rw [ren_src]
      by_cases e3 : y.src = m.q
      · simp [e3]
      · simp [e3, hyo]

theorem Fused.leads {k : KGraph} {n o : Nat} {m : Match} (f : Fused k n o m) (w : WF k.g) (c : Closed k.g) {p : Nat} (_hp : p ∈ k.g.ids)
    (hpo : p ≠ o) (hpq : p ≠ m.q) (h : Leads k.g p) : Leads (k.fmaApply n o m).g p := by
  obtain ⟨leaf, h1, h2, h3⟩ := h
  have h4 := f.paths c _ _ h1 h3
  rw [if_neg (show ¬ (p = o ∨ p = m.q) by simp [hpo, hpq])] at h4
  have hlo : leaf ≠ o := by
    rintro rfl
    obtain ⟨cn, ho⟩ := f.outo
    obtain ⟨s, hs, hs0, hss, hi⟩ := f.cases
    have hm : (leaf, 0) ∈ k.g.reads m.q := by
      have : ∃ l ∈ (k.g.obj m.q).inlets, s ∈ l.conns := by
        rcases hi with ⟨-, -, hi⟩ | ⟨-, -, hi⟩ | ⟨-, -, hi⟩ <;> rw [hi]
        · exact ⟨_, List.mem_cons_self, by simp⟩
        · exact ⟨⟨[s], .zero⟩, by simp, by simp⟩
        · exact ⟨_, List.mem_cons_self, by simp⟩
      obtain ⟨l, hl, hsl⟩ := this
      have := mem_reads hl hsl hss
      rwa [hs, hs0] at this
    have hc := w.count leaf f.ho 0 ⟨some .f, cn, .zero⟩ (by rw [ho]; rfl)
    have h0 : cn = 0 := h2 ⟨some .f, cn, .zero⟩ (by rw [ho]; simp)
    have : 0 < (k.g.ids.flatMap k.g.reads).count (leaf, 0) := List.count_pos_iff.mpr (List.mem_flatMap.mpr ⟨_, f.hq, hm⟩)
    simp only [h0] at hc
    omega
  by_cases e : leaf = m.q
  · subst e
    rw [if_pos (Or.inr rfl)] at h4
    refine ⟨n, f.mem_ids.mpr (Or.inr rfl), ?_, h4⟩
    intro out hout
    rw [f.obj_n] at hout
    simp only [List.mem_cons, List.not_mem_nil, or_false] at hout
    subst hout
    exact h2 ⟨some .f, (k.g.obj m.q).out0, .zero⟩ (by rw [f.outq]; simp)
  · rw [if_neg (by simp [hlo, e])] at h4
    refine ⟨leaf, f.mem_ids.mpr (Or.inl ⟨h1, hlo, e⟩), ?_, h4⟩
    intro out hout
    rw [f.obj_old h1] at hout
    exact h2 out hout

/-! ### the whole pass -/

/-- what the pass guarantees -/
structure KRef (k : KGraph) (n : Nat) (k' : KGraph) (n' : Nat) : Prop where
  le : n ≤ n'
  lt : (∀ p ∈ k.g.ids, p < n) → ∀ p ∈ k'.g.ids, p < n'
  kind : ∀ p, p < n → k'.kind p = k.kind p
  kept : ∀ p ∈ k'.g.ids, p < n → p ∈ k.g.ids ∧ (k'.g.obj p).outlets = (k.g.obj p).outlets ∧ (k'.g.obj p).signal = (k.g.obj p).signal ∧
    (k'.g.obj p).inlets.length = (k.g.obj p).inlets.length
  gone : ∀ p ∈ k.g.ids, p ∉ k'.g.ids → Arith (k.kind p) ∧ dacChan (k.g.obj p) = none
  new : ∀ p ∈ k'.g.ids, n ≤ p → (k'.kind p = .fma ∨ k'.kind p = .fms) ∧ (k'.g.obj p).inlets.length = 3 ∧
    ∃ cn, (k'.g.obj p).outlets = [⟨some .f, cn, .zero⟩]
  kwf : KWF k'
  closed : Closed k'.g
  nosig : NoSigCycle k'.g
  nocycle : NoCycle k.g → NoCycle k'.g
  fwd : ∀ {α : Type} [CommRing α] (F : Nat → List α → List α) (inp : Nat → α) (env : Nat → Nat → α), Interp k'.kind n' F →
    Flow k.g F inp env → ∃ env', (∀ p, p < n → env' p = env p) ∧ Flow k'.g F inp env' ∧
      ∀ p ∈ k'.g.ids, p < n → (k'.g.obj p).inlets.map (inletVal env') = (k.g.obj p).inlets.map (inletVal env)
  bwd : ∀ {α : Type} [CommRing α] (F : Nat → List α → List α) (inp : Nat → α) (env' : Nat → Nat → α), Interp k'.kind n' F →
    Flow k'.g F inp env' → ∃ env, (∀ p ∈ k'.g.ids, p < n → env p = env' p) ∧ Flow k.g F inp env
  lead : ∀ p ∈ k'.g.ids, p < n → Leads k.g p → Leads k'.g p
  sig : ∀ p ∈ k'.g.ids, n ≤ p → (k'.g.obj p).signal = true
  fused : (∀ p ∈ k.g.ids, p ∈ k'.g.ids) ∨ ∃ p ∈ k'.g.ids, n ≤ p
  paths : ∀ p ∈ k'.g.ids, ∀ q ∈ k'.g.ids, p < n → q < n → Reach k.g p q → Reach k'.g p q
  feeds : ∀ p < n, ∀ x ∈ k'.g.ids, Feeds k'.g p x → ∃ x' ∈ k.g.ids, Feeds k.g p x'

theorem Interp.mono [CommRing α] {K K' : Nat → Kind} {n n' : Nat} {F : Nat → List α → List α} (h : Interp K' n' F) (hle : n ≤ n')
    (hk : ∀ p, p < n → K' p = K p) : Interp K n F :=
  ⟨fun o ho e => h.mul o (by omega) (by rw [hk o ho, e]), fun o ho e => h.add o (by omega) (by rw [hk o ho, e]),
   fun o ho e => h.sub o (by omega) (by rw [hk o ho, e]), fun o ho e => h.fma o (by omega) (by rw [hk o ho, e]),
   fun o ho e => h.fms o (by omega) (by rw [hk o ho, e])⟩

theorem KRef.refl {k : KGraph} {n : Nat} (hn : ∀ p ∈ k.g.ids, p < n) (w : KWF k) (c : Closed k.g) (a : NoSigCycle k.g) : KRef k n k n :=
  ⟨Nat.le_refl _, fun _ => hn, fun _ _ => rfl, fun p hp _ => ⟨hp, rfl, rfl, rfl⟩, fun p h1 h2 => absurd h1 h2,
   fun p hp h => absurd (hn p hp) (by omega), w, c, a, fun h => h, fun F inp env _ h => ⟨env, fun _ _ => rfl, h, fun _ _ _ => rfl⟩,
   fun F inp env _ h => ⟨env, fun _ _ _ => rfl, h⟩, fun _ _ _ h => h,
   fun p hp h => absurd (hn p hp) (by omega), Or.inl fun _ h => h, fun _ _ _ _ _ _ h => h, fun _ _ x hx h => ⟨x, hx, h⟩⟩

theorem KRef.trans {k k1 k2 : KGraph} {n n1 n2 : Nat} (hn : ∀ p ∈ k.g.ids, p < n) (h1 : KRef k n k1 n1) (h2 : KRef k1 n1 k2 n2) :
    KRef k n k2 n2 := by
  have hn1 := h1.lt hn
  have hlt : ∀ p, p < n → p < n1 := fun p hp => Nat.lt_of_lt_of_le hp h1.le
  refine ⟨Nat.le_trans h1.le h2.le, fun _ => h2.lt hn1, fun p hp => (h2.kind p (hlt p hp)).trans (h1.kind p hp), fun p hp hpn => ?_,
    fun p hp hp2 => ?_, fun p hp hpn => ?_, h2.kwf, h2.closed, h2.nosig, fun h => h2.nocycle (h1.nocycle h), fun F inp env hF hf => ?_, fun F inp env hF hf => ?_,
    fun p hp hpn h => h2.lead p hp (hlt p hpn) (h1.lead p (h2.kept p hp (hlt p hpn)).1 hpn h), fun p hp hpn => ?_, ?_,
    fun p hp q hq hpn hqn h => h2.paths p hp q hq (hlt p hpn) (hlt q hqn)
      (h1.paths p (h2.kept p hp (hlt p hpn)).1 q (h2.kept q hq (hlt q hqn)).1 hpn hqn h),
    fun p hpn x hx h => by
      obtain ⟨x1, hx1, h⟩ := h2.feeds p (hlt p hpn) x hx h
      exact h1.feeds p hpn x1 hx1 h⟩
  · obtain ⟨a1, a2, a3, a4⟩ := h2.kept p hp (hlt p hpn)
    obtain ⟨b1, b2, b3, b4⟩ := h1.kept p a1 hpn
    exact ⟨b1, a2.trans b2, a3.trans b3, a4.trans b4⟩
  · by_cases e : p ∈ k1.g.ids
    · obtain ⟨a1, a2⟩ := h2.gone p e hp2
      obtain ⟨b1, b2, -⟩ := h1.kept p e (hn p hp)
      rw [h1.kind p (hn p hp)] at a1
      exact ⟨a1, by rw [← a2]; simp [dacChan, b2]⟩
    · exact h1.gone p hp e
  · by_cases e : p < n1
    · obtain ⟨a1, a2, a3, a4⟩ := h2.kept p hp e
      obtain ⟨b1, b2, b3⟩ := h1.new p a1 hpn
      refine ⟨by rw [h2.kind p e]; exact b1, a4.trans b2, ?_⟩
      rw [a2]; exact b3
    · exact h2.new p hp (by omega)
  · obtain ⟨env1, a1, a2, a3⟩ := h1.fwd F inp env (hF.mono h2.le h2.kind) hf
    obtain ⟨env2, b1, b2, b3⟩ := h2.fwd F inp env1 hF a2
    refine ⟨env2, fun p hp => (b1 p (hlt p hp)).trans (a1 p hp), b2, fun p hp hpn => ?_⟩
    have hp1 := (h2.kept p hp (hlt p hpn)).1
    exact (b3 p hp (hlt p hpn)).trans (a3 p hp1 hpn)
  · obtain ⟨env1, a1, a2⟩ := h2.bwd F inp env hF hf
    obtain ⟨env0, b1, b2⟩ := h1.bwd F inp env1 (hF.mono h2.le h2.kind) a2
    refine ⟨env0, fun p hp hpn => ?_, b2⟩
    have hp1 := (h2.kept p hp (hlt p hpn)).1
    exact (b1 p hp1 hpn).trans (a1 p hp (hlt p hpn))
  · by_cases e : p < n1
    · obtain ⟨a1, -, a3, -⟩ := h2.kept p hp e
      rw [a3]
      exact h1.sig p a1 hpn
    · exact h2.sig p hp (by omega)
  · rcases h2.fused with e2 | ⟨p, hp, hpn⟩
    · rcases h1.fused with e1 | ⟨p, hp, hpn⟩
      · exact Or.inl fun p hp => e2 p (e1 p hp)
      · exact Or.inr ⟨p, e2 p hp, hpn⟩
    · exact Or.inr ⟨p, hp, Nat.le_trans h1.le hpn⟩

theorem Fused.kref {k : KGraph} {n o : Nat} {m : Match} (f : Fused k n o m) (w : KWF k) (c : Closed k.g) (a : NoSigCycle k.g) :
    KRef k n (k.fmaApply n o m) (n + 1) := by
  have qarith : Arith (k.kind m.q) := by
    obtain ⟨s, -, -, -, h | h | h⟩ := f.cases
    · exact Or.inr (Or.inl h.1)
    · exact Or.inr (Or.inl h.1)
    · exact Or.inr (Or.inr h.1)
  have old : ∀ p ∈ (k.fmaApply n o m).g.ids, p < n → p ∈ k.g.ids ∧ p ≠ o ∧ p ≠ m.q := by
    intro p hp hpn
    rcases f.mem_ids.mp hp with h | rfl
    · exact h
    · exact absurd hpn (Nat.lt_irrefl _)
  refine ⟨by omega, fun _ p hp => ?_, fun p hp => ?_, fun p hp hpn => ?_, fun p hp hp' => ?_, fun p hp hpn => ?_, f.kwf w, f.closed c,
    f.nosig c a, f.nocycle c, fun F inp env hF hf => ?_, fun F inp env hF hf => ?_, fun p hp hpn h => ?_,
    fun p hp hpn => ?_, Or.inr ⟨n, f.mem_ids.mpr (Or.inr rfl), Nat.le_refl _⟩, fun p hp q hq hpn hqn h => ?_, fun p hpn x hx h => ?_⟩
  · rcases f.mem_ids.mp hp with ⟨h, -⟩ | rfl
    · have := f.fresh p h; omega
    · omega
  · have : p ≠ n := by omega
    simp [KGraph.fmaApply, this]
  · obtain ⟨h1, -⟩ := old p hp hpn
    rw [f.obj_old h1]
    exact ⟨h1, rfl, rfl, by simp [Obj.moveSrc]⟩
  · by_cases e : p = o
    · subst e
      exact ⟨Or.inl f.kindo, f.dac_none_o⟩
    · by_cases e' : p = m.q
      · rw [e']
        exact ⟨qarith, f.dac_none_q⟩
      · exact absurd (f.mem_ids.mpr (Or.inl ⟨hp, e, e'⟩)) hp'
  · rcases f.mem_ids.mp hp with ⟨h, -⟩ | rfl
    · have := f.fresh p h; omega
    · have hkn : (k.fmaApply p o m).kind p = m.kind := by simp [KGraph.fmaApply]
      rw [hkn, f.obj_n]
      refine ⟨?_, rfl, _, rfl⟩
      obtain ⟨s, -, -, -, h | h | h⟩ := f.cases
      · exact Or.inl h.2.1
      · exact Or.inl h.2.1
      · exact Or.inr h.2.1
  · obtain ⟨env', h1, h2, h3⟩ := f.fwd w.wf F hF inp env hf
    refine ⟨env', h1, h2, fun p hp hpn => ?_⟩
    obtain ⟨h4, -, h5⟩ := old p hp hpn
    exact h3 p h4 h5
  · obtain ⟨env', h1, h2⟩ := f.bwd w.wf F hF inp env hf
    refine ⟨env', fun p hp hpn => ?_, h2⟩
    obtain ⟨h4, h5, h6⟩ := old p hp hpn
    exact h1 p h4 h5 h6
  · obtain ⟨h4, h5, h6⟩ := old p hp hpn
    exact f.leads w.wf c h4 h5 h6 h
  · rcases f.mem_ids.mp hp with ⟨h, -⟩ | rfl
    · have := f.fresh p h; omega
    · rw [f.obj_n]
  · obtain ⟨h1, h2, h3⟩ := old p hp hpn
    obtain ⟨h4, h5, h6⟩ := old q hq hqn
    have := f.paths c p q h4 h
    rwa [if_neg (by simp [h2, h3]), if_neg (by simp [h5, h6])] at this
  · obtain ⟨l, hl, y, hy, rfl⟩ := h
    rcases f.mem_ids.mp hx with ⟨h1, h2, h3⟩ | rfl
    · rw [f.obj_old h1] at hl
      obtain ⟨l0, hl0, rfl⟩ := List.mem_map.1 hl
      obtain ⟨z, hz, rfl⟩ := List.mem_map.1 ((moveSrc_perm _ _ _).subset hy)
      rw [ren_src] at hpn ⊢
      by_cases e : z.src = m.q
      · rw [if_pos e] at hpn; omega
      · rw [if_neg e]
        exact ⟨x, h1, l0, hl0, z, hz, rfl⟩
    · rw [f.obj_n] at hl
      have hin : y = m.a ∨ y = m.b ∨ y = m.c := by
        simp only [List.mem_cons, List.not_mem_nil, or_false] at hl
        rcases hl with rfl | rfl | rfl <;> simp only [List.mem_cons, List.not_mem_nil, or_false] at hy <;> simp [hy]
      rcases hin with rfl | rfl | rfl
      · exact ⟨o, f.ho, ⟨[m.a], .zero⟩, by rw [f.inlo]; simp, m.a, by simp, rfl⟩
      · exact ⟨o, f.ho, ⟨[m.b], .zero⟩, by rw [f.inlo]; simp, m.b, by simp, rfl⟩
      · obtain ⟨s, -, -, -, hi⟩ := f.cases
        rcases hi with ⟨-, -, hi⟩ | ⟨-, -, hi⟩ | ⟨-, -, hi⟩
        · exact ⟨m.q, f.hq, ⟨[m.c], .zero⟩, by rw [hi]; simp, m.c, by simp, rfl⟩
        · exact ⟨m.q, f.hq, ⟨[m.c], .zero⟩, by rw [hi]; simp, m.c, by simp, rfl⟩
        · exact ⟨m.q, f.hq, ⟨[m.c], .zero⟩, by rw [hi]; simp, m.c, by simp, rfl⟩

theorem fmaAll_ok (os : List Nat) : ∀ (k : KGraph) (n : Nat), (∀ p ∈ k.g.ids, p < n) → KWF k → Closed k.g → NoSigCycle k.g → os.Nodup →
    (∀ o ∈ os, k.kind o = .mul → o ∈ k.g.ids) → (∀ o ∈ os, o < n) → KRef k n (k.fmaAll n os).1 (k.fmaAll n os).2 := by
  induction os with
  | nil => exact fun k n hn w c a _ _ _ => KRef.refl hn w c a
  | cons o os ih =>
    intro k n hn w c a hnd hos hlt
    simp only [KGraph.fmaAll]
    have hos' : ∀ p ∈ os, k.kind p = .mul → p ∈ k.g.ids := fun p hp => hos p (by simp [hp])
    obtain ⟨hno, hnd⟩ := List.nodup_cons.mp hnd
    unfold KGraph.fmaStep
    cases hm : k.fmaMatch o with
    | none => exact ih k n hn w c a hnd hos' fun p hp => hlt p (by simp [hp])
    | some m =>
      simp only
      have hmul : k.kind o = .mul := by
        unfold KGraph.fmaMatch at hm
        split at hm
        · rename_i h; exact h.1
        · simp at hm
      have f := fmaMatch_fused w a hn (hos o (by simp) hmul) hm
      have r := f.kref w c a
      refine KRef.trans hn r (ih _ _ (r.lt hn) r.kwf r.closed r.nosig hnd (fun p hp hk => ?_) fun p hp => ?_)
      · have hpn : p < n := hlt p (by simp [hp])
        rw [r.kind p hpn] at hk
        refine f.mem_ids.mpr (Or.inl ⟨hos' p hp hk, fun e => hno (e ▸ hp), fun e => ?_⟩)
        rw [e] at hk
        obtain ⟨s, -, -, -, h | h | h⟩ := f.cases <;> rw [h.1] at hk <;> simp at hk
      · have := hlt p (by simp [hp]); omega

/-- **C34**: after the pass, the signals at all remaining objects are the same as before, in both directions; all objects that
are removed are multiplications, additions or subtractions, none of them an output object -/
theorem fma_correct (k : KGraph) (n : Nat) (hn : ∀ p ∈ k.g.ids, p < n) (w : KWF k) (c : Closed k.g) (a : NoSigCycle k.g) :
    KRef k n (k.fma n).1 (k.fma n).2 :=
  fmaAll_ok k.g.ids k n hn w c a w.wf.nodup (fun _ h _ => h) hn

end Verif.Signal
