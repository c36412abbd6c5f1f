import Verif.MessageQueue
import Mathlib.Data.List.Perm.Subperm
/-! Representation invariant of the linked list and refinement to lists. -/
namespace Verif.MQ

@[simp] theorem set_same (h : Heap) (a : Nat) (n : Node) : h.set a n a = n := by simp [Heap.set]
theorem set_other (h : Heap) {a i : Nat} (n : Node) (hi : i ≠ a) : h.set a n i = h i := by
  simp [Heap.set, hi]

theorem setNext_apply (h : Heap) (a : Nat) (v : Option Nat) (i : Nat) :
    h.setNext a v i = if i = a then { h a with next := v } else h i := rfl
theorem setPrev_apply (h : Heap) (a : Nat) (v : Option Nat) (i : Nat) :
    h.setPrev a v i = if i = a then { h a with prev := v } else h i := rfl
theorem setItem_apply (h : Heap) (a : Nat) (v : Option Item) (i : Nat) :
    h.setItem a v i = if i = a then { h a with item := v } else h i := rfl

/-- The nodes `as` form a doubly linked segment: the first has `prev = p`, the last `next = e`. -/
def Seg (h : Heap) : Option Nat → List Nat → Option Nat → Prop
  | _, [], _ => True
  | p, a :: as, e => (h a).prev = p ∧ (h a).next = (as.head?).or e ∧ Seg h (some a) as e

/-- The nodes `ps` form a `NULL` terminated singly linked list. -/
def PSeg (h : Heap) : List Nat → Prop
  | [] => True
  | a :: as => (h a).next = as.head? ∧ PSeg h as

theorem PSeg.frame {h h' : Heap} {ps} (hp : PSeg h ps) (hf : ∀ a ∈ ps, (h' a).next = (h a).next) :
    PSeg h' ps := by
  induction ps with
  | nil => trivial
  | cons a as ih =>
    refine ⟨by rw [hf a (by simp)]; exact hp.1, ih hp.2 (fun b hb => hf b (by simp [hb]))⟩

theorem Seg.append {h : Heap} {p as bs e} :
    Seg h p (as ++ bs) e ↔ Seg h p as ((bs.head?).or e) ∧ Seg h ((as.getLast?).or p) bs e := by
  induction as generalizing p with
  | nil => simp [Seg]
  | cons a as ih =>
    simp only [List.cons_append, Seg, ih]
    have h1 : ((as ++ bs).head?).or e = (as.head?).or ((bs.head?).or e) := by
      cases as <;> simp
    have h2 : (as.getLast?).or (some a) = ((a :: as).getLast?).or p := by
      cases as with
      | nil => simp
      | cons b bs => simp [List.getLast?_eq_some_getLast]
    rw [h1, h2]
    simp only [and_assoc]

theorem Seg.relast {h h' : Heap} {p as e e'} (hs : Seg h p as e) (hn : as.Nodup)
    (hf : ∀ a ∈ as, (h' a).prev = (h a).prev ∧
      (h' a).next = if as.getLast? = some a then e' else (h a).next) : Seg h' p as e' := by
  induction as generalizing p with
  | nil => trivial
  | cons a as ih =>
    obtain ⟨h1, h2, h3⟩ := hs
    have hna : a ∉ as := (List.nodup_cons.mp hn).1
    refine ⟨by rw [(hf a (by simp)).1, h1], ?_, ih h3 (List.nodup_cons.mp hn).2 ?_⟩
    · rw [(hf a (by simp)).2]
      cases as with
      | nil => simp
      | cons b bs =>
        rw [if_neg, h2]
        · simp
        · rw [List.getLast?_cons_cons]
          intro hh
          exact hna (List.mem_of_getLast? hh)
    · intro b hb
      refine ⟨(hf b (by simp [hb])).1, ?_⟩
      rw [(hf b (by simp [hb])).2]
      cases as with
      | nil => simp at hb
      | cons c cs => rw [List.getLast?_cons_cons]

theorem Seg.rehead {h h' : Heap} {p p' bs e} (hs : Seg h p bs e) (hn : bs.Nodup)
    (hf : ∀ b ∈ bs, (h' b).next = (h b).next ∧
      (h' b).prev = if bs.head? = some b then p' else (h b).prev) : Seg h' p' bs e := by
  cases bs with
  | nil => trivial
  | cons b bs =>
    obtain ⟨h1, h2, h3⟩ := hs
    have hnb : b ∉ bs := (List.nodup_cons.mp hn).1
    refine ⟨by rw [(hf b (by simp)).2]; simp, by rw [(hf b (by simp)).1, h2], ?_⟩
    have hf' : ∀ a ∈ bs, (h' a).prev = (h a).prev ∧ (h' a).next = (h a).next := by
      intro a ha
      refine ⟨?_, (hf a (by simp [ha])).1⟩
      rw [(hf a (by simp [ha])).2, if_neg]
      intro hh
      simp at hh
      subst hh
      exact hnb ha
    clear hf
    generalize some b = q at h3 ⊢
    clear hnb hn h2 h1
    induction bs generalizing q with
    | nil => trivial
    | cons c cs ih =>
      refine ⟨by rw [(hf' c (by simp)).1]; exact h3.1, by rw [(hf' c (by simp)).2]; exact h3.2.1, ?_⟩
      exact ih (fun a ha => hf' a (by simp [ha])) (some c) h3.2.2

/-- Representation invariant: the queue's nodes are `as`, its pool `ps`, its messages `xs`; `k` nodes
that have been allocated are in neither list. -/
structure RepK (k : Nat) (q : Q) (as ps : List Nat) (xs : List Item) : Prop where
  head : q.head = as.head?
  tail : q.tail = as.getLast?
  seg : Seg q.h none as none
  pool : q.pool = ps.head?
  pseg : PSeg q.h ps
  nodup : (as ++ ps).Nodup
  lt : ∀ a ∈ as ++ ps, a < q.fresh
  items : as.map (fun a => (q.h a).item) = xs.map some
  cover : (as ++ ps).length + k = q.fresh

/-- Representation invariant between calls: every allocated node is in the queue or in the pool. -/
abbrev Rep := RepK 0

theorem rep_init (h : Heap) : Rep (init h) [] [] [] :=
  ⟨rfl, rfl, trivial, rfl, trivial, by simp, by simp, rfl, rfl⟩

theorem RepK.length_le {k} {q as ps xs} (r : RepK k q as ps xs) : (as ++ ps).length ≤ q.fresh := by
  have := List.Nodup.length_le_of_subset (l₂ := List.range q.fresh) r.nodup
    (fun a ha => by simpa using r.lt a ha)
  simpa using this

theorem RepK.len {k} {q as ps xs} (r : RepK k q as ps xs) : as.length = xs.length := by
  have := congrArg List.length r.items
  simpa using this

theorem map_item_congr {h h' : Heap} {as : List Nat}
    (hf : ∀ a ∈ as, (h' a).item = (h a).item) :
    as.map (fun a => (h' a).item) = as.map (fun a => (h a).item) :=
  List.map_congr_left hf

theorem getNode_rep {q as ps xs} (r : Rep q as ps xs) :
    ∃ ps', RepK 1 (getNode q).2 as ps' xs ∧ (getNode q).1 ∉ as ++ ps' ∧
      (getNode q).1 < (getNode q).2.fresh ∧ (getNode q).2.head = q.head ∧
      (getNode q).2.tail = q.tail := by
  unfold getNode
  cases hp : q.pool with
  | none =>
    have hps : ps = [] := by
      have := r.pool; rw [hp] at this
      cases ps with
      | nil => rfl
      | cons a b => simp at this
    subst hps
    refine ⟨[], ?_, ?_, Nat.lt_succ_self _, rfl, rfl⟩
    · have hne : ∀ a ∈ as, a ≠ q.fresh := fun a ha => by
        have := r.lt a (by simp [ha]); omega
      refine ⟨r.head, r.tail, ?_, rfl, trivial, r.nodup, ?_, ?_, by have := r.cover; simp only; omega⟩
      · refine r.seg.rehead (by simpa using r.nodup) (fun b hb => ?_)
        simp only [setNext_apply, if_neg (hne b hb)]
        refine ⟨trivial, ?_⟩
        split
        · rename_i hh
          cases as with
          | nil => simp at hh
          | cons c cs => simp at hh; subst hh; exact r.seg.1
        · rfl
      · intro a ha; have := r.lt a ha; simp only; omega
      · rw [← r.items]
        exact map_item_congr (fun a ha => by simp only [setNext_apply, if_neg (hne a ha)])
    · intro hmem
      have := r.lt q.fresh (by simpa using hmem)
      omega
  | some a =>
    have : ∃ ps', ps = a :: ps' := by
      have := r.pool; rw [hp] at this
      cases ps with
      | nil => simp at this
      | cons b bs => simp at this; exact ⟨bs, by rw [this]⟩
    obtain ⟨ps', rfl⟩ := this
    have hnd := r.nodup
    rw [List.nodup_append] at hnd
    obtain ⟨hd1, hd2, hd3⟩ := hnd
    have hnd2 := List.nodup_cons.mp hd2
    refine ⟨ps', ⟨r.head, r.tail, r.seg, r.pseg.1, r.pseg.2, ?_, ?_, r.items,
      by have := r.cover; simp at this ⊢; omega⟩, ?_, r.lt a (by simp),
      rfl, rfl⟩
    · rw [List.nodup_append]
      exact ⟨hd1, hnd2.2, fun x hx y hy => hd3 x hx y (by simp [hy])⟩
    · intro x hx
      apply r.lt
      simp only [List.mem_append, List.mem_cons] at hx ⊢
      rcases hx with h | h
      · exact .inl h
      · exact .inr (.inr h)
    · intro hmem
      rcases List.mem_append.mp hmem with h | h
      · exact hd3 a h a (by simp) rfl
      · exact hnd2.1 h

/-- linking a node into the list -/
theorem Rep.insert {q : Q} {q' : Q} {as bs ps : List Nat} {xs ys : List Item} {n : Nat} {x : Item}
    (r : RepK 1 q (as ++ bs) ps (xs ++ ys)) (hlen : as.length = xs.length)
    (hn : n ∉ (as ++ bs) ++ ps) (hlt : n < q.fresh)
    (hhead : q'.head = (as ++ n :: bs).head?) (htail : q'.tail = (as ++ n :: bs).getLast?)
    (hpool : q'.pool = q.pool) (hfresh : q'.fresh = q.fresh)
    (hnode : q'.h n = { prev := as.getLast?, next := bs.head?, item := some x })
    (has : ∀ a ∈ as, q'.h a = { q.h a with next := if as.getLast? = some a then some n else (q.h a).next })
    (hbs : ∀ b ∈ bs, q'.h b = { q.h b with prev := if bs.head? = some b then some n else (q.h b).prev })
    (hps : ∀ c ∈ ps, (q'.h c).next = (q.h c).next) :
    Rep q' (as ++ n :: bs) ps (xs ++ x :: ys) := by
  have hnd := r.nodup
  have hnd1 := (List.nodup_append.mp hnd)
  have hnd2 := (List.nodup_append.mp hnd1.1)
  refine ⟨hhead, htail, ?_, by rw [hpool]; exact r.pool, r.pseg.frame hps, ?_, ?_, ?_,
    by have := r.cover; simp at this ⊢; omega⟩
  · have hs := Seg.append.mp r.seg
    rw [Seg.append]
    refine ⟨hs.1.relast hnd2.1 (fun a ha => ?_), ?_, ?_, ?_⟩
    · rw [has a ha]; exact ⟨rfl, by simp⟩
    · rw [hnode]; simp
    · rw [hnode]; simp
    · exact hs.2.rehead hnd2.2.1 (fun b hb => by rw [hbs b hb]; exact ⟨rfl, rfl⟩)
  · have : (as ++ n :: bs ++ ps).Perm (n :: (as ++ bs ++ ps)) := by
      simp only [List.append_assoc, List.cons_append]
      exact List.perm_middle
    rw [this.nodup_iff]
    exact List.nodup_cons.mpr ⟨hn, hnd⟩
  · intro a ha
    rw [hfresh]
    simp only [List.append_assoc, List.mem_append, List.cons_append, List.mem_cons] at ha
    rcases ha with h | h | h | h
    · exact r.lt a (by simp [h])
    · rw [h]; exact hlt
    · exact r.lt a (by simp [h])
    · exact r.lt a (by simp [h])
  · have hit := r.items
    simp only [List.map_append] at hit
    have := List.append_inj hit (by simpa using hlen)
    simp only [List.map_append, List.map_cons, hnode]
    rw [map_item_congr (h := q.h) (h' := q'.h) (as := as) (fun a ha => by rw [has a ha]),
      map_item_congr (h := q.h) (h' := q'.h) (as := bs) (fun a ha => by rw [hbs a ha]), this.1, this.2]

/-- unlinking a node from the list and returning it to the pool -/
theorem Rep.unlink {q : Q} {q' : Q} {as bs ps : List Nat} {xs ys : List Item} {n : Nat} {x : Item}
    (r : Rep q (as ++ n :: bs) ps (xs ++ x :: ys)) (hlen : as.length = xs.length)
    (hhead : q'.head = (as ++ bs).head?) (htail : q'.tail = (as ++ bs).getLast?)
    (hpool : q'.pool = some n) (hfresh : q'.fresh = q.fresh)
    (hnode : (q'.h n).next = q.pool)
    (has : ∀ a ∈ as, q'.h a = { q.h a with next := if as.getLast? = some a then bs.head? else (q.h a).next })
    (hbs : ∀ b ∈ bs, q'.h b = { q.h b with prev := if bs.head? = some b then as.getLast? else (q.h b).prev })
    (hps : ∀ c ∈ ps, (q'.h c).next = (q.h c).next) :
    Rep q' (as ++ bs) (n :: ps) (xs ++ ys) := by
  have hnd := r.nodup
  have hnd1 := (List.nodup_append.mp hnd)
  have hnd2 := (List.nodup_append.mp hnd1.1)
  have hperm : (as ++ bs ++ n :: ps).Perm (as ++ n :: bs ++ ps) := by
    simp only [List.append_assoc, List.cons_append]
    exact List.Perm.append_left as List.perm_middle
  refine ⟨hhead, htail, ?_, by rw [hpool]; rfl, ⟨?_, r.pseg.frame hps⟩, ?_, ?_, ?_,
    by have := r.cover; simp at this ⊢; omega⟩
  · have hs := Seg.append.mp r.seg
    rw [Seg.append]
    refine ⟨hs.1.relast hnd2.1 (fun a ha => ?_),
      hs.2.2.2.rehead (List.nodup_cons.mp hnd2.2.1).2 (fun b hb => ?_)⟩
    · rw [has a ha]; exact ⟨rfl, by simp⟩
    · rw [hbs b hb]; exact ⟨rfl, by simp⟩
  · rw [hnode]; exact r.pool
  · exact hperm.nodup_iff.mpr hnd
  · intro a ha
    rw [hfresh]
    exact r.lt a (hperm.mem_iff.mp ha)
  · have hit := r.items
    simp only [List.map_append, List.map_cons] at hit
    have := List.append_inj hit (by simpa using hlen)
    simp only [List.map_append]
    rw [map_item_congr (h := q.h) (h' := q'.h) (as := as) (fun a ha => by rw [has a ha]),
      map_item_congr (h := q.h) (h' := q'.h) (as := bs) (fun a ha => by rw [hbs a ha]), this.1,
      (List.cons_eq_cons.mp this.2).2]


theorem RepK.empty_of_head {k} {q as ps xs} (r : RepK k q as ps xs) (h : q.head = none) :
    as = [] ∧ xs = [] := by
  have h1 : as = [] := by
    have := r.head
    rw [h] at this
    cases as with
    | nil => rfl
    | cons a b => simp at this
  subst h1
  refine ⟨rfl, ?_⟩
  have := r.len
  cases xs with
  | nil => rfl
  | cons a b => simp at this

theorem RepK.cons_of_head {k} {q as ps xs a} (r : RepK k q as ps xs) (h : q.head = some a) :
    ∃ as' x xs', as = a :: as' ∧ xs = x :: xs' ∧ (q.h a).item = some x := by
  have := r.head
  rw [h] at this
  cases as with
  | nil => simp at this
  | cons b bs =>
    simp at this
    subst this
    have hl := r.len
    cases xs with
    | nil => simp at hl
    | cons x xs =>
      have := r.items
      simp at this
      exact ⟨bs, x, xs, rfl, rfl, this.1⟩

theorem addMessage_rep {q as ps xs} (r : Rep q as ps xs) (x : Item) :
    ∃ as' ps', Rep (addMessage q x) as' ps' (xs ++ [x]) := by
  obtain ⟨ps', r1, hn, hlt, hhd, htl⟩ := getNode_rep r
  generalize hg : getNode q = g at r1 hn hlt hhd htl
  obtain ⟨n, q1⟩ := g
  simp only at r1 hn hlt hhd htl
  have hnas : ∀ a ∈ as, a ≠ n := fun a ha hh => hn (by simp [← hh, ha])
  have hnps : ∀ a ∈ ps', a ≠ n := fun a ha hh => hn (by simp [← hh, ha])
  have hnd := List.nodup_append.mp r1.nodup
  unfold addMessage
  rw [hg]
  simp only
  have r1' : RepK 1 q1 (as ++ []) ps' (xs ++ []) := by simpa using r1
  cases ht : q1.tail with
  | none =>
    have : as = [] := by
      have := r1.tail
      rw [ht] at this
      exact List.getLast?_eq_none_iff.mp this.symm
    subst this
    refine ⟨[] ++ n :: [], ps', Rep.insert r1' r1.len (by simpa using hn) hlt rfl rfl rfl rfl ?_ ?_ ?_ ?_⟩
    · simp [setNext_apply, setPrev_apply, setItem_apply]
    · simp
    · simp
    · intro c hc
      simp [setNext_apply, setPrev_apply, setItem_apply, hnps c hc]
  | some t =>
    have htl' : as.getLast? = some t := by rw [← r1.tail, ht]
    have htm : t ∈ as := List.mem_of_getLast? htl'
    have htn := hnas t htm
    have hq1 := r1.head
    have hne : as ≠ [] := fun h => by simp [h] at htm
    refine ⟨as ++ n :: [], ps', Rep.insert r1' r1.len (by simpa using hn) hlt ?_ ?_ rfl rfl ?_ ?_ ?_ ?_⟩
    · simp only [r1.head]
      cases as with
      | nil => simp at hne
      | cons => simp
    · simp
    · simp [setNext_apply, setPrev_apply, setItem_apply, htl', Ne.symm htn]
    · intro a ha
      have := hnas a ha
      simp only [setNext_apply, setPrev_apply, setItem_apply, htl', Option.some.injEq, this, htn,
        if_false]
      by_cases hat : a = t
      · subst hat; simp
      · simp [hat, Ne.symm hat]
    · simp
    · intro c hc
      have h1 : c ≠ t := fun h => hnd.2.2 t htm c hc h.symm
      simp [setNext_apply, setPrev_apply, setItem_apply, hnps c hc, h1]

theorem insMid_split (x : Item) (ys : List Item) :
    ∃ l r, ys = l ++ r ∧ insMid x ys = l ++ x :: r ∧ (∀ y ∈ l, ¬ x.ts < y.ts) ∧
      (∀ y, r.head? = some y → x.ts < y.ts) := by
  induction ys with
  | nil => exact ⟨[], [], rfl, rfl, by simp, by simp⟩
  | cons y ys ih =>
    by_cases h : x.ts < y.ts
    · exact ⟨[], y :: ys, rfl, by simp [insMid, h], by simp, by simpa using h⟩
    · obtain ⟨l, r, h1, h2, h3, h4⟩ := ih
      refine ⟨y :: l, r, by simp [h1], by simp [insMid, h, h2], ?_, h4⟩
      intro z hz
      rcases List.mem_cons.mp hz with rfl | hz
      · exact h
      · exact h3 z hz

/-- the search loop finds the last node that does not have a later timestamp -/
theorem findSlot_spec {h : Heap} {t : Nat} {p e} (l : List Item) :
    ∀ (a : Nat) (as : List Nat) (b : Nat) (y : Item) (fuel : Nat),
      Seg h p (a :: as) e → as.map (fun a => (h a).item) = l.map some →
      e = some b → (h b).item = some y → (∀ z ∈ l, ¬ t < z.ts) → t < y.ts → as.length < fuel →
      findSlot h t fuel (some a) = some ((a :: as).getLast (by simp)) ∧
      (h ((a :: as).getLast (by simp))).next = some b := by
  induction l generalizing p with
  | nil =>
    intro a as b y fuel hs hm he hb hl ht hf
    have : as = [] := by simpa using hm
    subst this
    cases fuel with
    | zero => omega
    | succ fuel =>
      have hnx := hs.2.1
      simp [he] at hnx
      simp [findSlot, hnx, tsOf, hb, ht]
  | cons z l ih =>
    intro a as b y fuel hs hm he hb hl ht hf
    cases as with
    | nil => simp at hm
    | cons c cs =>
      cases fuel with
      | zero => omega
      | succ fuel =>
        have hnx := hs.2.1
        simp at hnx
        simp at hm
        have := ih c cs b y fuel hs.2.2 hm.2 he hb (fun w hw => hl w (by simp [hw])) ht
          (by simp at hf; omega)
        have hz := hl z (by simp)
        simp only [findSlot, hnx, tsOf, hm.1]
        simp only [List.getLast_cons_cons]
        refine ⟨?_, this.2⟩
        simp [hm.1, hz, this.1]

theorem addByTimestamp_rep {q as ps xs} (r : Rep q as ps xs) (x : Item) :
    ∃ q' as' ps', addByTimestamp q x = some q' ∧ Rep q' as' ps' (absInsert x xs) := by
  cases hh : q.head with
  | none =>
    obtain ⟨_, rfl⟩ := r.empty_of_head hh
    obtain ⟨as', ps', r'⟩ := addMessage_rep r x
    exact ⟨addMessage q x, as', ps', by simp [addByTimestamp, hh], by simpa [absInsert] using r'⟩
  | some hd =>
    obtain ⟨as0, x0, xs0, has, hxs, hit0⟩ := r.cons_of_head hh
    obtain ⟨ps', r1, hn, hlt, hhd, htl⟩ := getNode_rep r
    unfold addByTimestamp
    rw [hh]
    simp only
    generalize hg : getNode q = g at r1 hn hlt hhd htl
    obtain ⟨n, q1⟩ := g
    simp only at r1 hn hlt hhd htl ⊢
    have hnas : ∀ a ∈ as, a ≠ n := fun a ha hh => hn (by simp [← hh, ha])
    have hnps : ∀ a ∈ ps', a ≠ n := fun a ha hh => hn (by simp [← hh, ha])
    have hnd := List.nodup_append.mp r1.nodup
    have hdas : hd ∈ as := by simp [has]
    rw [hh] at hhd
    obtain ⟨tl, htl'⟩ : ∃ tl, as.getLast? = some tl := by
      rw [has]; exact ⟨_, List.getLast?_eq_some_getLast (by simp)⟩
    have htlas : tl ∈ as := List.mem_of_getLast? htl'
    obtain ⟨y0, hy0, hy0'⟩ : ∃ y, xs.getLast? = some y ∧ (q1.h tl).item = some y := by
      have h1 := congrArg List.getLast? r1.items
      simp only [List.getLast?_map, htl', Option.map_some] at h1
      cases hx : xs.getLast? with
      | none => simp [hx] at h1
      | some y => exact ⟨y, rfl, by simpa [hx] using h1⟩
    have hit0' : (q1.h hd).item = some x0 := by
      have := r1.items
      rw [has, hxs] at this
      simp at this
      exact this.1
    have hset : ∀ a ∈ as, q1.h.setItem n (some x) a = q1.h a := fun a ha => by
      simp [setItem_apply, hnas a ha]
    simp only [hhd, r1.tail, htl', Option.bind_eq_bind, Option.bind_some, tsOf, hset hd hdas,
      hset tl htlas, hit0', hy0', Option.map_some]
    have hlast : ∀ h, ((x0 :: xs0).getLast h) = y0 := fun h => by
      rw [hxs, List.getLast?_eq_some_getLast h] at hy0
      simpa using hy0
    by_cases hc1 : x.ts < x0.ts
    · rw [if_pos hc1]
      refine ⟨_, [] ++ n :: as, ps', rfl, ?_⟩
      have : absInsert x xs = [] ++ x :: xs := by rw [hxs]; simp [absInsert, hc1]
      rw [this]
      have hdn := hnas hd hdas
      refine Rep.insert (q := q1) (as := []) (xs := []) (by simpa using r1) rfl (by simpa using hn)
        hlt rfl ?_ rfl rfl ?_ (by simp) ?_ ?_
      · show some tl = _
        rw [← htl', has]; simp [List.getLast?_eq_some_getLast]
      · simp [setNext_apply, setPrev_apply, setItem_apply, Ne.symm hdn, has]
      · intro b hb
        simp only [setNext_apply, setPrev_apply, setItem_apply, hnas b hb, if_false, has, hdn,
          List.head?_cons, Option.some.injEq]
        by_cases hbd : b = hd
        · subst hbd; simp
        · simp [hbd, Ne.symm hbd]
      · intro c hc
        have h1 : c ≠ hd := fun h => hnd.2.2 hd hdas c hc h.symm
        simp [setNext_apply, setPrev_apply, setItem_apply, hnps c hc, h1]
    · rw [if_neg hc1]
      by_cases hc2 : x.ts ≥ y0.ts
      · rw [if_pos hc2]
        refine ⟨_, as ++ n :: [], ps', rfl, ?_⟩
        have : absInsert x xs = xs ++ x :: [] := by
          rw [hxs]; simp only [absInsert, hc1, if_false, hlast, hc2, if_true]
        rw [this]
        have hdn := hnas tl htlas
        refine Rep.insert (q := q1) (bs := []) (ys := []) (by simpa using r1) r1.len (by simpa using hn)
          hlt ?_ (by simp) rfl rfl ?_ ?_ (by simp) ?_
        · simp only [has, List.cons_append, List.head?_cons]
        · simp [setNext_apply, setPrev_apply, setItem_apply, Ne.symm hdn, htl']
        · intro b hb
          simp only [setNext_apply, setPrev_apply, setItem_apply, hnas b hb, if_false, hdn,
            htl', Option.some.injEq]
          by_cases hbd : b = tl
          · subst hbd; simp
          · simp [hbd, Ne.symm hbd]
        · intro c hc
          have h1 : c ≠ tl := fun h => hnd.2.2 tl htlas c hc h.symm
          simp [setNext_apply, setPrev_apply, setItem_apply, hnps c hc, h1]
      · rw [if_neg hc2]
        obtain ⟨l, rr, h1, h2, h3, h4⟩ := insMid_split x xs0
        have hrr : rr ≠ [] := by
          intro hrr
          subst hrr
          apply hc2
          simp at h1
          have hm := List.mem_of_getLast? hy0
          rw [hxs] at hm
          rcases List.mem_cons.mp hm with rfl | hm
          · omega
          · have := h3 y0 (h1 ▸ hm); omega
        obtain ⟨y, rs, rfl⟩ := List.exists_cons_of_ne_nil hrr
        have hty : x.ts < y.ts := h4 y (by simp)
        -- split the nodes accordingly
        have hitems := r1.items
        rw [has, hxs, h1] at hitems
        simp only [List.map_cons, List.map_append] at hitems
        have hit1 := (List.cons_eq_cons.mp hitems).2
        obtain ⟨as1, as2', e1, e2, e3⟩ := List.map_eq_append_iff.mp hit1
        obtain ⟨b, as2, rfl, e4, e5⟩ := List.map_eq_cons_iff.mp e3
        have hseg := r1.seg
        rw [has, e1, ← List.cons_append] at hseg
        have hseg1 := (Seg.append.mp hseg).1
        have hasm : ∀ a ∈ hd :: as1, a ∈ as := fun a ha => by
          rw [has, e1]; simp only [List.mem_cons, List.mem_append] at ha ⊢; rcases ha with h | h <;> simp [h]
        have hbm : b ∈ as := by rw [has, e1]; simp
        have hseg1' : Seg (q1.h.setItem n (some x)) none (hd :: as1) (some b) := by
          have : (hd :: as1).Nodup := by
            have := hnd.1
            rw [has, e1, ← List.cons_append] at this
            exact (List.nodup_append.mp this).1
          refine hseg1.relast this (fun a ha => ?_)
          rw [hset a (hasm a ha)]
          refine ⟨rfl, ?_⟩
          split
          · rename_i hla
            have hw : (hd :: as1) = (hd :: as1).dropLast ++ [a] := by
              rw [List.getLast?_eq_some_getLast (by simp)] at hla
              simp only [Option.some.injEq] at hla
              rw [← hla]
              exact (List.dropLast_concat_getLast (by simp)).symm
            rw [hw] at hseg1
            have := (Seg.append.mp hseg1).2.2.1
            simpa using this
          · rfl
        have hlen : as1.length < q1.fresh + 1 := by
          have := r1.length_le
          rw [has, e1] at this
          simp at this
          omega
        have hfs := findSlot_spec (t := x.ts) l hd as1 b y (q1.fresh + 1) hseg1'
          (by rw [← e2]; exact List.map_congr_left (fun a ha => by rw [hset a (hasm a (by simp [ha]))]))
          rfl (by rw [hset b hbm]; exact e4) h3 hty hlen
        rw [hfs.1]
        simp only [Option.bind_some]
        rw [hfs.2]
        simp only [Option.bind_some]
        generalize hnode : (hd :: as1).getLast (by simp) = node at hfs
        refine ⟨_, (hd :: as1) ++ n :: (b :: as2), ps', rfl, ?_⟩
        have : absInsert x xs = (x0 :: l) ++ x :: (y :: rs) := by
          rw [hxs]; simp only [absInsert, hc1, if_false, hlast, hc2, h2, List.cons_append]
        rw [this]
        have hlastn : (hd :: as1).getLast? = some node := by
          rw [List.getLast?_eq_some_getLast (by simp), hnode]
        have hnm : node ∈ hd :: as1 := List.mem_of_getLast? hlastn
        have hnn := hnas node (hasm node hnm)
        have hbn := hnas b hbm
        have hfull : as = (hd :: as1) ++ (b :: as2) := by rw [has, e1]; rfl
        have hfx : xs = (x0 :: l) ++ (y :: rs) := by rw [hxs, h1]; rfl
        have hdisj := hnd.1
        rw [hfull] at hdisj
        have hdisj := List.nodup_append.mp hdisj
        have hbnode : b ≠ node := fun h => hdisj.2.2 node hnm b (by simp) h.symm
        refine Rep.insert (q := q1) (by rw [← hfull, ← hfx]; exact r1) ?_ (by rw [← hfull]; exact hn)
          hlt ?_ ?_ rfl rfl ?_ ?_ ?_ ?_
        · have := congrArg List.length e2
          simp at this
          simp [this]
        · simp
        · show some tl = _
          rw [← htl', hfull, List.getLast?_append, List.getLast?_append, List.getLast?_cons_cons]
        · rw [hlastn]
          simp [setNext_apply, setPrev_apply, setItem_apply, Ne.symm hbn, Ne.symm hnn]
        · intro a ha
          have h1 : a ≠ b := fun h => hdisj.2.2 a ha b (by simp) h
          have h2 := hnas a (hasm a ha)
          simp only [setNext_apply, setPrev_apply, setItem_apply, h1, h2, hnn, if_false, hlastn,
            Option.some.injEq]
          by_cases hbd : a = node
          · subst hbd; simp
          · simp [hbd, Ne.symm hbd]
        · intro a ha
          have h1 : a ≠ node := fun h => hdisj.2.2 node hnm a ha h.symm
          have h2 := hnas a (by rw [hfull]; exact List.mem_append.mpr (.inr ha))
          simp only [setNext_apply, setPrev_apply, setItem_apply, h1, h2, hbn, hbnode, if_false,
            Option.some.injEq, List.head?_cons]
          by_cases hbd : a = b
          · subst hbd; simp
          · simp [hbd, Ne.symm hbd]
        · intro c hc
          have h1 : c ≠ b := fun h => hnd.2.2 b hbm c hc h.symm
          have h2 : c ≠ node := fun h => hnd.2.2 node (hasm node hnm) c hc h.symm
          simp [setNext_apply, setPrev_apply, setItem_apply, hnps c hc, h1, h2]


theorem pop_rep {q as ps xs} (r : Rep q as ps xs) :
    ∃ as' ps', Rep (pop q) as' ps' xs.tail := by
  unfold pop
  cases hh : q.head with
  | none =>
    obtain ⟨rfl, rfl⟩ := r.empty_of_head hh
    exact ⟨[], ps, r⟩
  | some n =>
    obtain ⟨as0, x0, xs0, rfl, rfl, hit0⟩ := r.cons_of_head hh
    have hnd := List.nodup_append.mp r.nodup
    have hnd1 := List.nodup_cons.mp hnd.1
    have hnps : ∀ c ∈ ps, c ≠ n := fun c hc h => hnd.2.2 n (by simp) c hc h.symm
    have hnas : ∀ c ∈ as0, c ≠ n := fun c hc h => hnd1.1 (h ▸ hc)
    have hnx : (q.h n).next = as0.head? := by have := r.seg.2.1; simpa using this
    simp only [setItem_apply, if_true, hnx]
    cases as0 with
    | nil =>
      refine ⟨[] ++ [], n :: ps, Rep.unlink (q := q) (as := []) (bs := []) (xs := []) (ys := xs0) r rfl
        rfl rfl rfl rfl ?_ (by simp) (by simp) ?_⟩
      · simp [setNext_apply, setPrev_apply]
      · intro c hc
        simp [setNext_apply, setPrev_apply, setItem_apply, hnps c hc]
    | cons b bs =>
      have hbn := hnas b (by simp)
      refine ⟨[] ++ b :: bs, n :: ps, Rep.unlink (q := q) (as := []) (bs := b :: bs) (xs := [])
        (ys := xs0) r rfl rfl ?_ rfl rfl ?_ (by simp) ?_ ?_⟩
      · show q.tail = _
        rw [r.tail]; simp
      · simp [setNext_apply, setPrev_apply]
      · intro c hc
        simp only [setNext_apply, setPrev_apply, setItem_apply, hnas c hc, hbn, if_false,
          List.head?_cons, Option.some.injEq, List.getLast?_nil]
        by_cases hcb : c = b
        · subst hcb; simp
        · simp [hcb, Ne.symm hcb]
      · intro c hc
        have h1 : c ≠ b := fun h => hnd.2.2 b (by simp) c hc h.symm
        simp [setNext_apply, setPrev_apply, setItem_apply, hnps c hc, h1]

theorem absRemove_skip {m : Nat} {send : Option Nat} (l r : List Item) (hl : ∀ y ∈ l, y.id ≠ m) :
    absRemove m send (l ++ r) = ((absRemove m send r).1, l ++ (absRemove m send r).2) := by
  induction l with
  | nil => rfl
  | cons y l ih =>
    simp only [List.cons_append, absRemove, hl y (by simp), if_false,
      ih (fun z hz => hl z (by simp [hz]))]

/-- the search loop of `mq_removeMessage` -/
theorem findMsg_spec {h : Heap} {m : Nat} :
    ∀ (as : List Nat) (xs : List Item) (p : Nat) (fuel : Nat) (pp : Option Nat),
      Seg h pp as none → as.map (fun a => (h a).item) = xs.map some → as.length < fuel →
      (findMsg h m fuel p as.head? = some ((((p :: as).getLast (by simp))), none) ∧ ∀ x ∈ xs, x.id ≠ m) ∨
      (∃ as1 c as2 xs1 x xs2, as = as1 ++ c :: as2 ∧ xs = xs1 ++ x :: xs2 ∧
        as1.length = xs1.length ∧ (∀ y ∈ xs1, y.id ≠ m) ∧ x.id = m ∧ (h c).item = some x ∧
        findMsg h m fuel p as.head? = some ((p :: as1).getLast (by simp), some c)) := by
  intro as
  induction as with
  | nil =>
    intro xs p fuel pp hs hm hf
    have : xs = [] := by simpa using hm.symm
    subst this
    cases fuel with
    | zero => omega
    | succ fuel => exact .inl ⟨by simp [findMsg], by simp⟩
  | cons a as ih =>
    intro xs p fuel pp hs hm hf
    cases xs with
    | nil => simp at hm
    | cons x xs =>
      cases fuel with
      | zero => omega
      | succ fuel =>
        simp only [List.map_cons, List.cons_eq_cons] at hm
        have hnx := hs.2.1
        simp at hnx
        by_cases hx : x.id = m
        · refine .inr ⟨[], a, as, [], x, xs, rfl, rfl, rfl, by simp, hx, hm.1, ?_⟩
          simp [findMsg, hm.1, hx]
        · have hstep : findMsg h m (fuel + 1) p (a :: as).head? = findMsg h m fuel a as.head? := by
            simp [findMsg, hm.1, hx, hnx]
          rw [hstep]
          rcases ih xs a fuel _ hs.2.2 hm.2 (by simp at hf; omega) with ⟨h1, h2⟩ | h1
          · refine .inl ⟨by rw [h1]; simp, ?_⟩
            intro y hy
            rcases List.mem_cons.mp hy with rfl | hy
            · exact hx
            · exact h2 y hy
          · obtain ⟨as1, c, as2, xs1, y, xs2, e1, e2, e3, e4, e5, e6, e7⟩ := h1
            refine .inr ⟨a :: as1, c, as2, x :: xs1, y, xs2, by simp [e1], by simp [e2], by simp [e3], ?_,
              e5, e6, by rw [e7]; simp⟩
            intro z hz
            rcases List.mem_cons.mp hz with rfl | hz
            · exact hx
            · exact e4 z hz

theorem removeMessage_rep {q as ps xs} (r : Rep q as ps xs) (m : Nat) (send : Option Nat) :
    ∃ q' as' ps', removeMessage q m send = some ((absRemove m send xs).1, q') ∧
      Rep q' as' ps' (absRemove m send xs).2 := by
  unfold removeMessage
  cases hh : q.head with
  | none =>
    obtain ⟨rfl, rfl⟩ := r.empty_of_head hh
    exact ⟨q, [], ps, rfl, r⟩
  | some hd =>
    obtain ⟨as0, x0, xs0, rfl, rfl, hit0⟩ := r.cons_of_head hh
    simp only [hit0, Option.map_some, Option.some.injEq]
    by_cases h0 : x0.id = m
    · rw [if_pos h0]
      simp only [absRemove, h0, if_true]
      by_cases hs : send = none ∨ some x0.send = send
      · rw [if_pos hs, if_pos hs]
        obtain ⟨as', ps', r'⟩ := pop_rep r
        exact ⟨_, as', ps', rfl, by simpa using r'⟩
      · rw [if_neg hs, if_neg hs]
        exact ⟨q, _, ps, rfl, r⟩
    · rw [if_neg h0]
      have hnx : (q.h hd).next = as0.head? := by have := r.seg.2.1; simpa using this
      have hits := r.items
      simp only [List.map_cons, List.cons_eq_cons] at hits
      have hlen : as0.length < q.fresh + 1 := by
        have := r.length_le
        simp at this
        omega
      have hrem : absRemove m send (x0 :: xs0) =
          ((absRemove m send xs0).1, x0 :: (absRemove m send xs0).2) := by
        simp [absRemove, h0]
      rw [hnx, hrem]
      rcases findMsg_spec (m := m) as0 xs0 hd (q.fresh + 1) _ r.seg.2.2 hits.2 hlen with ⟨h1, h2⟩ | h1
      · rw [h1]
        have := absRemove_skip (send := send) xs0 [] h2
        simp only [List.append_nil, absRemove] at this
        rw [this]
        exact ⟨q, _, ps, rfl, r⟩
      · obtain ⟨as1, c, as2, xs1, y, xs2, e1, e2, e3, e4, e5, e6, e7⟩ := h1
        rw [e7]
        have hab := absRemove_skip (send := send) xs1 (y :: xs2) e4
        rw [← e2] at hab
        simp only [absRemove, e5, if_true] at hab
        simp only [Option.bind_eq_bind, Option.bind_some, e6, Option.map_some]
        by_cases hs : send = none ∨ some y.send = send
        · rw [if_pos hs] at hab ⊢
          rw [hab]
          simp only
          have hlastn : (hd :: as1).getLast? = some ((hd :: as1).getLast (by simp)) :=
            List.getLast?_eq_some_getLast (by simp)
          generalize (hd :: as1).getLast (by simp) = prv at hlastn ⊢
          have hfull : hd :: as0 = (hd :: as1) ++ c :: as2 := by rw [e1]; rfl
          have hfx : x0 :: xs0 = (x0 :: xs1) ++ y :: xs2 := by rw [e2]; rfl
          have hnd := List.nodup_append.mp r.nodup
          rw [hfull] at hnd
          have hnd1 := List.nodup_append.mp hnd.1
          have hnd2 := List.nodup_cons.mp hnd1.2.1
          have hpm : prv ∈ hd :: as1 := List.mem_of_getLast? hlastn
          have hpc : prv ≠ c := hnd1.2.2 prv hpm c (by simp)
          have hcps : ∀ d ∈ ps, d ≠ c := fun d hd' h => hnd.2.2 c (by simp) d hd' h.symm
          have hpps : ∀ d ∈ ps, d ≠ prv := fun d hd' h =>
            hnd.2.2 prv (List.mem_append.mpr (.inl hpm)) d hd' h.symm
          have hcas : ∀ d ∈ hd :: as1, d ≠ c := fun d hd' => hnd1.2.2 d hd' c (by simp)
          have hrep' : Rep q ((hd :: as1) ++ c :: as2) ps ((x0 :: xs1) ++ y :: xs2) := by
            rw [← hfull, ← hfx]; exact r
          have htail := r.tail
          rw [hfull] at htail
          cases as2 with
          | nil =>
            have htl : q.tail = some c := by rw [htail, List.getLast?_append]; simp
            rw [if_pos htl.symm]
            refine ⟨_, (hd :: as1) ++ [], c :: ps, rfl, ?_⟩
            rw [show x0 :: (xs1 ++ xs2) = (x0 :: xs1) ++ xs2 from rfl]
            refine Rep.unlink hrep' (by simp [e3]) rfl ?_ rfl rfl ?_ ?_ (by simp) ?_
            · simp only [List.append_nil]; exact hlastn.symm
            · simp [setNext_apply, setPrev_apply]
            · intro d hd'
              simp only [setNext_apply, setPrev_apply, setItem_apply, hcas d hd', hpc, if_false, hlastn,
                Option.some.injEq, List.head?_nil]
              by_cases hdp : d = prv
              · subst hdp; simp
              · simp [hdp, Ne.symm hdp]
            · intro d hd'
              simp [setNext_apply, setPrev_apply, setItem_apply, hcps d hd', hpps d hd']
          | cons e as3 =>
            have htl : some c ≠ q.tail := by
              rw [htail]
              intro h
              have h2 : ((hd :: as1) ++ c :: e :: as3).getLast? = (e :: as3).getLast? := by
                rw [List.getLast?_append, List.getLast?_cons_cons, List.getLast?_eq_some_getLast (by simp)]; rfl
              rw [h2] at h
              exact hnd2.1 (List.mem_of_getLast? h.symm)
            rw [if_neg htl]
            have hcn : (q.h c).next = some e := by
              have := (Seg.append.mp hrep'.seg).2.2.1
              simpa using this
            have hec : e ≠ c := fun h => hnd2.1 (by simp [h])
            have hep : prv ≠ e := hnd1.2.2 prv hpm e (by simp)
            simp only [setItem_apply, if_true, hcn, Option.bind_some]
            refine ⟨_, (hd :: as1) ++ e :: as3, c :: ps, rfl, ?_⟩
            rw [show x0 :: (xs1 ++ xs2) = (x0 :: xs1) ++ xs2 from rfl]
            refine Rep.unlink hrep' (by simp [e3]) rfl ?_ rfl rfl ?_ ?_ ?_ ?_
            · show q.tail = _
              rw [htail, List.getLast?_append, List.getLast?_append, List.getLast?_cons_cons]
            · simp [setNext_apply, setPrev_apply]
            · intro d hd'
              have hde : d ≠ e := hnd1.2.2 d hd' e (by simp)
              simp only [setNext_apply, setPrev_apply, setItem_apply, hcas d hd', hpc, hde, if_false,
                hlastn, Option.some.injEq, List.head?_cons]
              by_cases hdp : d = prv
              · subst hdp; simp
              · simp [hdp, Ne.symm hdp]
            · intro d hd'
              have hdc : d ≠ c := fun h => hnd2.1 (h ▸ hd')
              have hdp : d ≠ prv := fun h => hnd1.2.2 prv hpm d (by simp only [List.mem_cons] at hd' ⊢; exact .inr hd') h.symm
              simp only [setNext_apply, setPrev_apply, setItem_apply, hdc, hdp, hec, Ne.symm hep,
                if_false, hlastn, Option.some.injEq, List.head?_cons]
              by_cases hde : d = e
              · subst hde; simp
              · simp [hde, Ne.symm hde]
            · intro d hd'
              have hde : d ≠ e := fun h => hnd.2.2 e (by simp) d hd' h.symm
              simp [setNext_apply, setPrev_apply, setItem_apply, hcps d hd', hpps d hd', hde]
        · rw [if_neg hs] at hab ⊢
          rw [hab]
          exact ⟨q, _, ps, rfl, by rw [e2] at r; exact r⟩

theorem clear_rep {q as ps xs} (r : Rep q as ps xs) (fuel : Nat) (hf : xs.length < fuel) :
    ∃ q' ps', clear fuel q = some q' ∧ Rep q' [] ps' [] := by
  induction fuel generalizing q as ps xs with
  | zero => omega
  | succ fuel ih =>
    unfold clear
    cases hh : q.head with
    | none =>
      obtain ⟨rfl, rfl⟩ := r.empty_of_head hh
      exact ⟨q, ps, rfl, r⟩
    | some n =>
      obtain ⟨as0, x0, xs0, rfl, rfl, _⟩ := r.cons_of_head hh
      obtain ⟨as', ps', r'⟩ := pop_rep r
      exact ih r' (by simp at hf ⊢; omega)

theorem toListFrom_seg {h : Heap} {p} {as : List Nat} {xs : List Item} {fuel : Nat}
    (hs : Seg h p as none) (hm : as.map (fun a => (h a).item) = xs.map some) (hf : as.length ≤ fuel) :
    toListFrom h fuel as.head? = some xs := by
  induction as generalizing p xs fuel with
  | nil =>
    have : xs = [] := by simpa using hm.symm
    subst this
    simp [toListFrom]
  | cons a as ih =>
    cases xs with
    | nil => simp at hm
    | cons x xs =>
      cases fuel with
      | zero => simp at hf
      | succ fuel =>
        simp only [List.map_cons, List.cons_eq_cons] at hm
        have hnx := hs.2.1
        simp at hnx
        simp [toListFrom, hm.1, hnx, ih hs.2.2 hm.2 (by simpa using hf)]

theorem RepK.toList {k} {q as ps xs} (r : RepK k q as ps xs) : toList q = some xs := by
  unfold MQ.toList
  rw [r.head]
  refine toListFrom_seg r.seg r.items ?_
  have := r.length_le
  simp at this
  omega

theorem toListBackFrom_seg {h : Heap} {e} {as : List Nat} {xs : List Item} {fuel : Nat}
    (hs : Seg h none as e) (hm : as.map (fun a => (h a).item) = xs.map some) (hf : as.length ≤ fuel) :
    toListBackFrom h fuel as.getLast? = some xs.reverse := by
  induction fuel generalizing as xs e with
  | zero =>
    have : as = [] := by simpa using hf
    subst this
    have : xs = [] := by simpa using hm.symm
    subst this
    simp [toListBackFrom]
  | succ fuel ih =>
    rcases List.eq_nil_or_concat as with rfl | ⟨as0, a, rfl⟩
    · have : xs = [] := by simpa using hm.symm
      subst this
      simp [toListBackFrom]
    · rcases List.eq_nil_or_concat xs with rfl | ⟨xs0, x, rfl⟩
      · simp at hm
      · simp only [List.concat_eq_append, List.map_append, List.map_cons, List.map_nil] at hm hs hf ⊢
        have hm' := List.append_inj' hm rfl
        have hs' := Seg.append.mp hs
        have hpv := hs'.2.1
        simp at hpv
        simp at hm'
        have := ih hs'.1 hm'.1 (by simp at hf; omega)
        simp [toListBackFrom, hm'.2, hpv, this]

theorem RepK.toListBack {k} {q as ps xs} (r : RepK k q as ps xs) : toListBack q = some xs.reverse := by
  unfold MQ.toListBack
  rw [r.tail]
  refine toListBackFrom_seg r.seg r.items ?_
  have := r.length_le
  simp at this
  omega

theorem sizeFrom_seg {h : Heap} {p} {as : List Nat} {fuel : Nat}
    (hs : Seg h p as none) (hf : as.length ≤ fuel) :
    sizeFrom h fuel as.head? = some as.length := by
  induction as generalizing p fuel with
  | nil => simp [sizeFrom]
  | cons a as ih =>
    cases fuel with
    | zero => simp at hf
    | succ fuel =>
      have hnx := hs.2.1
      simp at hnx
      simp [sizeFrom, hnx, ih hs.2.2 (by simpa using hf)]

theorem RepK.size {k} {q as ps xs} (r : RepK k q as ps xs) : size q = some xs.length := by
  unfold MQ.size
  rw [r.head, ← r.len]
  refine sizeFrom_seg r.seg ?_
  have := r.length_le
  simp at this
  omega

theorem RepK.hasMessageBefore {k} {q as ps xs} (r : RepK k q as ps xs) (t : Nat) :
    hasMessageBefore q t = some (match xs with | [] => false | x :: _ => decide (x.ts < t)) := by
  unfold MQ.hasMessageBefore
  cases hh : q.head with
  | none =>
    obtain ⟨_, rfl⟩ := r.empty_of_head hh
    rfl
  | some a =>
    obtain ⟨as0, x0, xs0, _, rfl, hit⟩ := r.cons_of_head hh
    simp [tsOf, hit]

theorem nodesFrom_seg {h : Heap} {p} {as : List Nat} {fuel : Nat}
    (hs : Seg h p as none) (hf : as.length ≤ fuel) : nodesFrom h fuel as.head? = some as := by
  induction as generalizing p fuel with
  | nil => simp [nodesFrom]
  | cons a as ih =>
    cases fuel with
    | zero => simp at hf
    | succ fuel =>
      have hnx := hs.2.1
      simp at hnx
      simp [nodesFrom, hnx, ih hs.2.2 (by simpa using hf)]

theorem nodesFrom_pseg {h : Heap} {as : List Nat} {fuel : Nat}
    (hs : PSeg h as) (hf : as.length ≤ fuel) : nodesFrom h fuel as.head? = some as := by
  induction as generalizing fuel with
  | nil => simp [nodesFrom]
  | cons a as ih =>
    cases fuel with
    | zero => simp at hf
    | succ fuel =>
      have hnx := hs.1
      simp [nodesFrom, hnx, ih hs.2 (by simpa using hf)]

theorem RepK.queueNodes {k q as ps xs} (r : RepK k q as ps xs) : queueNodes q = some as := by
  unfold MQ.queueNodes
  rw [r.head]
  have := r.length_le
  simp at this
  exact nodesFrom_seg r.seg (by omega)

theorem RepK.poolNodes {k q as ps xs} (r : RepK k q as ps xs) : poolNodes q = some ps := by
  unfold MQ.poolNodes
  rw [r.pool]
  have := r.length_le
  simp at this
  exact nodesFrom_pseg r.pseg (by omega)

theorem RepK.peek {k q as ps xs} (r : RepK k q as ps xs) : peek q = xs.head? := by
  unfold MQ.peek
  cases hh : q.head with
  | none =>
    obtain ⟨_, rfl⟩ := r.empty_of_head hh
    rfl
  | some a =>
    obtain ⟨as0, x0, xs0, _, rfl, hit⟩ := r.cons_of_head hh
    simp [hit]

theorem Rep.perm {q as ps xs} (r : Rep q as ps xs) : (as ++ ps).Perm (List.range q.fresh) := by
  have h1 := List.Nodup.subperm (l₂ := List.range q.fresh) r.nodup
    (fun a ha => by simpa using r.lt a ha)
  exact h1.perm_of_length_le (by have := r.cover; simp at this ⊢; omega)


/-! ### `mq_clearAfter` -/

/-- loop invariant of `mq_clearAfter`: `Rep` except that `head` is not updated and that the last
remaining node's `next` may point anywhere -/
structure LI (q : Q) (as ps : List Nat) (xs : List Item) : Prop where
  tail : q.tail = as.getLast?
  seg : ∃ e, Seg q.h none as e
  pool : q.pool = ps.head?
  pseg : PSeg q.h ps
  nodup : (as ++ ps).Nodup
  lt : ∀ a ∈ as ++ ps, a < q.fresh
  items : as.map (fun a => (q.h a).item) = xs.map some
  cover : (as ++ ps).length = q.fresh

theorem RepK.li {q as ps xs} (r : Rep q as ps xs) : LI q as ps xs :=
  ⟨r.tail, ⟨_, r.seg⟩, r.pool, r.pseg, r.nodup, r.lt, r.items, r.cover⟩

/-- the messages that survive: everything up to the last one before `t` -/
def keep (t : Nat) (xs : List Item) : List Item := (xs.reverse.dropWhile (fun x => decide (t ≤ x.ts))).reverse

theorem keep_concat (t : Nat) (xs : List Item) (x : Item) :
    keep t (xs ++ [x]) = if t ≤ x.ts then keep t xs else xs ++ [x] := by
  unfold keep
  simp only [List.reverse_append, List.reverse_cons, List.reverse_nil, List.nil_append,
    List.singleton_append, List.dropWhile_cons, decide_eq_true_eq]
  split <;> simp

theorem clearAfterLoop_li {t : Nat} (fuel : Nat) {q as ps xs} (r : LI q as ps xs)
    (hf : xs.length < fuel) :
    ∃ q' as' ps', clearAfterLoop t fuel q = some q' ∧ LI q' as' ps' (keep t xs) ∧
      q'.head = q.head ∧ (keep t xs = xs → q' = q) := by
  induction fuel generalizing q as ps xs with
  | zero => omega
  | succ fuel ih =>
    rcases List.eq_nil_or_concat as with rfl | ⟨as0, n, rfl⟩
    · have : xs = [] := by have := r.items; simpa using this.symm
      subst this
      have ht : q.tail = none := r.tail
      exact ⟨q, [], ps, by simp [clearAfterLoop, ht], r, rfl, fun _ => rfl⟩
    · rcases List.eq_nil_or_concat xs with rfl | ⟨xs0, x, rfl⟩
      · have := r.items; simp at this
      · simp only [List.concat_eq_append] at r hf ⊢
        have ht : q.tail = some n := by rw [r.tail]; simp
        have hm := r.items
        simp only [List.map_append, List.map_cons, List.map_nil] at hm
        have hm' := List.append_inj' hm rfl
        simp only [List.cons_eq_cons, and_true] at hm'
        rw [keep_concat]
        unfold clearAfterLoop
        simp only [ht, Option.bind_eq_bind, tsOf, hm'.2, Option.map_some, Option.bind_some]
        by_cases hc : t ≤ x.ts
        · simp only [if_pos hc]
          have hnd := List.nodup_append.mp r.nodup
          have hnd1 := List.nodup_append.mp hnd.1
          have hn0 : ∀ a ∈ as0, a ≠ n := fun a ha => hnd1.2.2 a ha n (by simp)
          have hnps : ∀ a ∈ ps, a ≠ n := fun a ha h => hnd.2.2 n (by simp) a ha h.symm
          obtain ⟨e, hseg⟩ := r.seg
          have hs := Seg.append.mp hseg
          have hpv : (q.h n).prev = as0.getLast? := by have := hs.2.1; simpa using this
          -- heap after the iteration
          have key : ∀ h', (∀ a, a ≠ n → (h' a).next = (q.h a).next ∧ (h' a).item = (q.h a).item) →
              (∀ a ∈ as0, (h' a).prev = (q.h a).prev) → (h' n).next = q.pool →
              LI { q with h := h', tail := (q.h n).prev, pool := some n } as0 (n :: ps) xs0 := by
            intro h' k1 k2 k3
            refine ⟨hpv, ⟨some n, ?_⟩, rfl, ⟨by rw [k3]; exact r.pool, r.pseg.frame (fun a ha => (k1 a (hnps a ha)).1)⟩,
              ?_, ?_, ?_, ?_⟩
            · refine hs.1.relast hnd1.1 (fun a ha => ⟨k2 a ha, ?_⟩)
              rw [(k1 a (hn0 a ha)).1]
              split
              · rename_i hla
                have hw : as0 = as0.dropLast ++ [a] := by
                  have hne : as0 ≠ [] := by intro h; simp [h] at ha
                  rw [List.getLast?_eq_some_getLast hne] at hla
                  simp only [Option.some.injEq] at hla
                  rw [← hla]
                  exact (List.dropLast_concat_getLast hne).symm
                have h0 := hs.1
                rw [hw] at h0
                have := (Seg.append.mp h0).2.2.1
                simpa using this
              · rfl
            · have : (as0 ++ n :: ps).Perm (as0 ++ [n] ++ ps) := by simp
              exact this.nodup_iff.mpr r.nodup
            · intro a ha
              exact r.lt a (by simpa using ha)
            · rw [← hm'.1]
              exact map_item_congr (fun a ha => (k1 a (hn0 a ha)).2)
            · have := r.cover
              simp at this ⊢
              omega
          have fin : ∀ h', LI { q with h := h', tail := (q.h n).prev, pool := some n } as0 (n :: ps) xs0 →
              ∃ q' as' ps', clearAfterLoop t fuel { q with h := h', tail := (q.h n).prev, pool := some n } = some q' ∧
              LI q' as' ps' (keep t xs0) ∧ q'.head = q.head ∧ (keep t xs0 = xs0 ++ [x] → q' = q) := by
            intro h' hli
            obtain ⟨q', as', ps', h1, h2, h3, _⟩ := ih hli (by simp at hf; omega)
            refine ⟨q', as', ps', h1, h2, h3, fun hk => ?_⟩
            exfalso
            have hl : (keep t xs0).length ≤ xs0.length := by
              unfold keep
              have := (List.dropWhile_sublist (l := xs0.reverse) (fun x => decide (t ≤ x.ts))).length_le
              rw [List.length_reverse] at this ⊢
              exact this
            rw [hk, List.length_append] at hl
            simp only [List.length_cons] at hl
            omega
          simp only [setItem_apply, if_true]
          cases hp : q.pool with
          | none =>
            have := fin _ (key (((q.h.setItem n none).setNext n q.pool).setPrev n none) ?_ ?_ ?_)
            · simpa only [hp] using this
            · intro a ha; refine ⟨?_, ?_⟩ <;> simp [setNext_apply, setPrev_apply, setItem_apply, ha]
            · intro a ha; simp [setNext_apply, setPrev_apply, setItem_apply, hn0 a ha]
            · simp [setNext_apply, setPrev_apply]
          | some p =>
            have hpm : p ∈ ps := by
              have := r.pool; rw [hp] at this; exact List.mem_of_head? this.symm
            have hpn := hnps p hpm
            have := fin _ (key ((((q.h.setItem n none).setNext n q.pool).setPrev n none).setPrev p (some n))
              ?_ ?_ ?_)
            · simpa only [hp] using this
            · intro a ha
              by_cases hap : a = p
              · subst hap; simp [setNext_apply, setPrev_apply, setItem_apply, ha]
              · simp [setNext_apply, setPrev_apply, setItem_apply, ha, hap]
            · intro a ha
              have hap : a ≠ p := fun h => hnd.2.2 a (by simp [ha]) p hpm h
              simp [setNext_apply, setPrev_apply, setItem_apply, hn0 a ha, hap]
            · simp [setNext_apply, setPrev_apply, Ne.symm hpn]
        · simp only [if_neg hc]
          exact ⟨q, _, ps, rfl, r, rfl, fun _ => rfl⟩

theorem LI.toListBack {q as ps xs} (r : LI q as ps xs) : toListBack q = some xs.reverse := by
  obtain ⟨e, hs⟩ := r.seg
  unfold MQ.toListBack
  rw [r.tail]
  refine toListBackFrom_seg hs r.items ?_
  have := r.cover
  simp at this
  omega

theorem LI.rep_nil {q ps} (r : LI q [] ps []) : Rep { q with head := none } [] ps [] :=
  ⟨rfl, r.tail, trivial, r.pool, r.pseg, r.nodup, r.lt, r.items, r.cover⟩

end Verif.MQ
