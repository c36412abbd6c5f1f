import Verif.Delay
import Verif.Props.MessageQueue
/-! C21: a message given to a delay object is emitted once, at its time, unless it is cleared or flushed before. -/
namespace Verif.Delay
open Verif.MQ (Item absInsert absRemove)
open Verif.Msg (Err)

/-! ### specification -/

/-- the messages of the delay object `D` that are still waiting: in the queue and not the one being dispatched -/
def waiting (D : Nat) (w : W) : List Item := w.q.filter fun x => x.send = D ∧ some x.id ≠ w.exec

/-- everything else in the queue -/
def others (D : Nat) (w : W) : List Item := w.q.filter fun x => ¬ (x.send = D ∧ some x.id ≠ w.exec)

/-- the contents of the waiting messages -/
def waitingUids (D : Nat) (w : W) : List Nat := (waiting D w).map fun x => w.tag x.id

def Other.sendOf : Other → Nat
  | .sched _ s _ _ => s
  | .cancel _ s => s

/-- the rest of the patch does not pose as this object and does not cancel the message being dispatched -/
def OtherOk (D : Nat) (exec : Option Nat) (a : Other) : Prop :=
  a.sendOf ≠ D ∧ ∀ p s, a = .cancel p s → exec ≠ some p

/-- which events can happen in which state; `loop`: whether flushed messages may come back to the object at once -/
def EvOk (loop : Prop) (D : Nat) (w : W) : Ev → Prop
  | .flush _ during => ∀ i, ∀ a ∈ during i, match a with
    | .other a => OtherOk D w.exec a
    | .back _ _ => loop
  | .other a => OtherOk D w.exec a
  | .start => w.exec = none
  | .finish => ∃ x, w.q.head? = some x ∧ w.exec = some x.id
  | _ => True

/-- the states a system with a delay object can get into, by any history of events -/
inductive Reach (loop : Prop) (D d0 : Nat) : W → Prop
  | init : Reach loop D d0 (init d0)
  | next {w w' e} : Reach loop D d0 w → EvOk loop D w e → step D w e = .ok w' → Reach loop D d0 w'

/-! ### queue lemmas -/

theorem insMid_split (x : Item) (xs : List Item) : ∃ l r, xs = l ++ r ∧ MQ.insMid x xs = l ++ x :: r := by
  induction xs with
  | nil => exact ⟨[], [], rfl, rfl⟩
  | cons y ys ih =>
    unfold MQ.insMid
    split
    · exact ⟨[], y :: ys, rfl, rfl⟩
    · obtain ⟨l, r, h1, h2⟩ := ih
      exact ⟨y :: l, r, by rw [h1]; rfl, by rw [h2]; rfl⟩

theorem absInsert_split (x : Item) (xs : List Item) : ∃ l r, xs = l ++ r ∧ absInsert x xs = l ++ x :: r := by
  unfold absInsert
  split
  · exact ⟨[], [], rfl, rfl⟩
  · rename_i y ys
    split
    · exact ⟨[], y :: ys, rfl, rfl⟩
    · split
      · exact ⟨y :: ys, [], by simp, rfl⟩
      · obtain ⟨l, r, h1, h2⟩ := insMid_split x ys
        exact ⟨y :: l, r, by rw [h1]; rfl, by rw [h2]; rfl⟩

theorem mem_absInsert {x y : Item} {xs : List Item} : y ∈ absInsert x xs ↔ y = x ∨ y ∈ xs := by
  obtain ⟨l, r, h1, h2⟩ := absInsert_split x xs
  rw [h2, h1]; simp only [List.mem_append, List.mem_cons]; tauto

theorem filter_absInsert_pos {x : Item} {xs : List Item} {P : Item → Bool} (h : P x = true) :
    ((absInsert x xs).filter P).Perm (x :: xs.filter P) := by
  obtain ⟨l, r, h1, h2⟩ := absInsert_split x xs
  rw [h2, h1, List.filter_append, List.filter_append, List.filter_cons, if_pos h]
  exact List.perm_middle

theorem filter_absInsert_neg {x : Item} {xs : List Item} {P : Item → Bool} (h : P x = false) :
    (absInsert x xs).filter P = xs.filter P := by
  obtain ⟨l, r, h1, h2⟩ := absInsert_split x xs
  rw [h2, h1, List.filter_append, List.filter_append, List.filter_cons, if_neg (by simp [h])]

def UniqueIds (q : List Item) : Prop := (q.map (·.id)).Nodup

theorem UniqueIds.pw {q : List Item} (h : UniqueIds q) : q.Pairwise (fun a b => a.id ≠ b.id) := by
  unfold UniqueIds at h
  rw [List.Nodup, List.pairwise_map] at h
  exact h

theorem UniqueIds.eq {q : List Item} (h : UniqueIds q) {x y : Item} (hx : x ∈ q) (hy : y ∈ q) (e : x.id = y.id) : x = y := by
  have := h.pw
  clear h
  induction q with
  | nil => cases hx
  | cons z q ih =>
    rw [List.pairwise_cons] at this
    rcases List.mem_cons.mp hx with hx' | hx' <;> rcases List.mem_cons.mp hy with hy' | hy'
    · rw [hx', hy']
    · subst hx'; exact absurd e (this.1 y hy')
    · subst hy'; exact absurd e.symm (this.1 x hx')
    · exact ih hx' hy' this.2

theorem UniqueIds.insert {q : List Item} (h : UniqueIds q) {x : Item} (hx : x.id ∉ q.map (·.id)) :
    UniqueIds (absInsert x q) := by
  obtain ⟨l, r, h1, h2⟩ := absInsert_split x q
  unfold UniqueIds
  rw [h2]
  subst h1
  have : ((l ++ x :: r).map (·.id)).Perm ((x :: (l ++ r)).map (·.id)) := List.perm_middle.map _
  rw [this.nodup_iff, List.map_cons, List.nodup_cons]
  exact ⟨hx, h⟩

theorem UniqueIds.filter {q : List Item} (h : UniqueIds q) (P : Item → Bool) : UniqueIds (q.filter P) :=
  h.sublist (List.filter_sublist.map _)

theorem setTs_ids (p ts : Nat) (q : List Item) : (setTs p ts q).map (·.id) = q.map (·.id) := by
  unfold setTs
  rw [List.map_map]
  refine List.map_congr_left fun x _ => ?_
  simp only [Function.comp]
  split <;> rfl

theorem mem_setTs {p ts : Nat} {q : List Item} {y : Item} :
    y ∈ setTs p ts q ↔ (y ∈ q ∧ y.id ≠ p) ∨ (∃ x ∈ q, x.id = p ∧ y = { x with ts := ts }) := by
  unfold setTs
  rw [List.mem_map]
  constructor
  · rintro ⟨x, hx, rfl⟩
    split
    · rename_i h; exact .inr ⟨x, hx, h, rfl⟩
    · rename_i h; exact .inl ⟨hx, h⟩
  · rintro (⟨h, h'⟩ | ⟨x, hx, h, rfl⟩)
    · exact ⟨y, h, by rw [if_neg h']⟩
    · exact ⟨x, hx, by rw [if_pos h]⟩

/-- filters that do not look at the timestamp, or not at `p`, commute with changing the timestamp of `p` -/
theorem filter_setTs (p ts : Nat) (q : List Item) (P : Item → Bool) (hP : ∀ x ∈ q, x.id = p → P x = false)
    (hP' : ∀ x ∈ q, x.id = p → P { x with ts := ts } = false) : (setTs p ts q).filter P = q.filter P := by
  induction q with
  | nil => rfl
  | cons y q ih =>
    have ih := ih (fun x hx => hP x (List.mem_cons_of_mem _ hx)) (fun x hx => hP' x (List.mem_cons_of_mem _ hx))
    unfold setTs at ih ⊢
    rw [List.map_cons]
    by_cases hy : y.id = p
    · rw [if_pos hy, List.filter_cons, if_neg (by simp [hP' y (by simp) hy]), List.filter_cons,
        if_neg (by simp [hP y (by simp) hy]), ih]
    · rw [if_neg hy, List.filter_cons, List.filter_cons, ih]

theorem remove_eq {q : List Item} (hu : UniqueIds q) {x : Item} (hx : x ∈ q) :
    absRemove x.id (some x.send) q = (true, q.filter fun y => y.id ≠ x.id) := by
  rw [MQ.absRemove_eq _ _ _ hu.pw, if_pos ⟨x, hx, rfl, .inr rfl⟩]

theorem remove_other {q : List Item} (hu : UniqueIds q) (p s : Nat) :
    (∃ x ∈ q, x.id = p ∧ x.send = s ∧ (absRemove p (some s) q).2 = q.filter fun y => y.id ≠ p) ∨
    (absRemove p (some s) q).2 = q := by
  rw [MQ.absRemove_eq _ _ _ hu.pw]
  split
  · rename_i h
    obtain ⟨x, hx, h1, h2⟩ := h
    rcases h2 with h2 | h2
    · cases h2
    · exact .inl ⟨x, hx, h1, by simpa using h2.symm, rfl⟩
  · exact .inr rfl

theorem fresh_not_mem (p : Nat) (q : List Item) : fresh p q ∉ q.map (·.id) := by
  unfold fresh
  split
  · intro h
    have : ∀ (l : List Nat) (a : Nat), a ∈ l → a ≤ l.sum := by
      intro l a ha
      induction l with
      | nil => cases ha
      | cons b l ih =>
        rw [List.sum_cons]
        rcases List.mem_cons.mp ha with rfl | ha
        · omega
        · have := ih ha; omega
    have := this _ _ h
    omega
  · assumption

/-! ### slots -/

/-- the pointers held in the slots -/
def live (ss : List (Option Nat)) : List Nat := ss.filterMap id

theorem mem_live {ss : List (Option Nat)} {p : Nat} : p ∈ live ss ↔ some p ∈ ss := by
  simp [live]

theorem fillSlot_live {p : Nat} {ss ss' : List (Option Nat)} (h : fillSlot p ss = some ss') :
    (live ss').Perm (p :: live ss) ∧ ss'.length = ss.length := by
  induction ss generalizing ss' with
  | nil => cases h
  | cons s ss ih =>
    cases s with
    | none =>
      simp only [fillSlot, Option.some.injEq] at h
      subst h
      simp [live]
    | some x =>
      simp only [fillSlot, Option.map_eq_some_iff] at h
      obtain ⟨t, h1, rfl⟩ := h
      obtain ⟨h2, h3⟩ := ih h1
      refine ⟨?_, by simp [h3]⟩
      have : live (some x :: t) = x :: live t := by simp [live]
      rw [this]
      have : live (some x :: ss) = x :: live ss := by simp [live]
      rw [this]
      exact (h2.cons x).trans (List.Perm.swap _ _ _)

theorem fillSlot_ok {p : Nat} {ss : List (Option Nat)} (h : (live ss).length < ss.length) : ∃ ss', fillSlot p ss = some ss' := by
  induction ss with
  | nil => simp [live] at h
  | cons s ss ih =>
    cases s with
    | none => exact ⟨_, rfl⟩
    | some x =>
      have : live (some x :: ss) = x :: live ss := by simp [live]
      rw [this] at h
      simp only [List.length_cons] at h
      obtain ⟨ss', h'⟩ := ih (by omega)
      exact ⟨some x :: ss', by simp [fillSlot, h']⟩

theorem clearExecuting_live (p : Nat) (ss : List (Option Nat)) :
    live (clearExecuting p ss) = (live ss).erase p ∧ (clearExecuting p ss).length = ss.length := by
  induction ss with
  | nil => simp [clearExecuting, live]
  | cons s ss ih =>
    unfold clearExecuting
    split
    · rename_i h
      subst h
      simp [live]
    · rename_i h
      cases s with
      | none => simpa [live] using ih
      | some x =>
        have e1 : live (some x :: ss) = x :: live ss := by simp [live]
        have e2 : live (some x :: clearExecuting p ss) = x :: live (clearExecuting p ss) := by simp [live]
        rw [e1, e2, ih.1, List.erase_cons, if_neg (by simpa using h)]
        exact ⟨rfl, by simp [ih.2]⟩

theorem clearExecuting_none {p : Nat} {ss : List (Option Nat)} {j : Nat} (h : ss[j]?.join = none) :
    (clearExecuting p ss)[j]?.join = none := by
  induction ss generalizing j with
  | nil => simp [clearExecuting]
  | cons s ss ih =>
    unfold clearExecuting
    split
    · cases j with
      | zero => rfl
      | succ j => simpa using h
    · cases j with
      | zero => simpa using h
      | succ j => exact ih (by simpa using h)

theorem clearExecuting_at {p : Nat} {ss : List (Option Nat)} {j : Nat} (hn : (live ss).Nodup) (h : ss[j]?.join = some p) :
    (clearExecuting p ss)[j]?.join = none := by
  induction ss generalizing j with
  | nil => simp at h
  | cons s ss ih =>
    unfold clearExecuting
    split
    · rename_i hs
      cases j with
      | zero => rfl
      | succ j =>
        subst hs
        have : live (some p :: ss) = p :: live ss := by simp [live]
        rw [this, List.nodup_cons] at hn
        exfalso
        apply hn.1
        rw [mem_live]
        simp only [List.getElem?_cons_succ] at h
        rw [Option.join_eq_some_iff] at h
        exact List.mem_of_getElem? h
    · rename_i hs
      cases j with
      | zero => simp at h; exact absurd h hs
      | succ j =>
        refine ih ?_ (by simpa using h)
        cases s with
        | none => simpa [live] using hn
        | some x =>
          have : live (some x :: ss) = x :: live ss := by simp [live]
          rw [this, List.nodup_cons] at hn
          exact hn.2

/-! ### the invariant -/

/-- `X`: the addresses of messages that are being sent and are still in the queue; `full`: whether all waiting messages are
held in slots -/
structure Inv (full : Prop) (D : Nat) (X : List Nat) (w : W) : Prop where
  uniq : UniqueIds w.q
  len : w.slots.length = maxMessages
  nodup : (live w.slots).Nodup
  sub : ∀ p ∈ live w.slots, p ∉ X ∧ ∃ x ∈ w.q, x.id = p ∧ x.send = D
  track : full → ∀ x ∈ w.q, x.send = D → x.id ∉ X → x.id ∈ live w.slots
  exIn : ∀ p ∈ X, p ∈ w.q.map (·.id)
  due : ∀ x ∈ w.q, x.send = D → x.id ∉ X → (w.tag x.id, x.ts) ∈ w.acc
  accEq : w.acc.map (·.1) = List.range w.n
  perm : (w.acc.map (·.1)).Perm (w.log.map (·.uid) ++ w.gone ++
    (w.q.filter fun x => x.send = D ∧ x.id ∉ X).map fun x => w.tag x.id)
  logDue : ∀ e ∈ w.log, e.flushed = false → (e.uid, e.ts) ∈ w.acc

variable {full : Prop} {D : Nat} {X : List Nat} {w : W}

theorem inv_init (d0 : Nat) : Inv full D [] (init d0) where
  uniq := List.nodup_nil
  len := by simp [init]
  nodup := by simp only [init]; decide
  sub := by
    have : live (init d0).slots = [] := by simp only [init]; decide
    rw [this]; simp
  track := by simp [init]
  exIn := by simp
  due := by simp [init]
  accEq := rfl
  perm := by simp [init]
  logDue := by simp [init]

/-- inserting a message of this object, possibly while another message's timestamp is changed -/
theorem Inv.insert (h : Inv full D X w) {q' : List Item} {p due : Nat} {slots' : List (Option Nat)}
    (hf : fillSlot p w.slots = some slots') (hp : p ∉ w.q.map (·.id))
    (hu : UniqueIds q')
    (hm : ∀ y, y ∈ q' → (y.id = p ∧ y.send = D ∧ y.ts = due) ∨
      ∃ x ∈ w.q, x.id = y.id ∧ x.send = y.send ∧ (x.id ∉ X → x = y))
    (hm' : ∀ x ∈ w.q, ∃ y ∈ q', y.id = x.id ∧ y.send = x.send)
    (hp' : (q'.filter fun x => x.send = D ∧ x.id ∉ X).Perm
      (⟨p, due, 0, D⟩ :: w.q.filter fun x => x.send = D ∧ x.id ∉ X)) :
    Inv full D X { w with q := q', tag := fun a => if a = p then w.n else w.tag a, slots := slots', n := w.n + 1, acc := w.acc ++ [(w.n, due)] } := by
  obtain ⟨f1, f2⟩ := fillSlot_live hf
  have pX : p ∉ X := fun hx => hp (h.exIn p hx)
  have tg : ∀ x ∈ w.q, (if x.id = p then w.n else w.tag x.id) = w.tag x.id := by
    intro x hx
    rw [if_neg]
    rintro rfl
    exact hp (List.mem_map_of_mem hx)
  refine ⟨hu, by simp only; rw [f2, h.len], ?_, ?_, ?_, ?_, ?_, ?_, ?_, ?_⟩
  · simp only
    rw [f1.nodup_iff, List.nodup_cons]
    refine ⟨fun hx => ?_, h.nodup⟩
    obtain ⟨-, x, hx', rfl, -⟩ := h.sub p hx
    exact hp (List.mem_map_of_mem hx')
  · intro p' hp1
    simp only at hp1 ⊢
    rw [f1.mem_iff, List.mem_cons] at hp1
    rcases hp1 with rfl | hp1
    · refine ⟨pX, ?_⟩
      have : (⟨p', due, 0, D⟩ : Item) ∈ q'.filter fun x => x.send = D ∧ x.id ∉ X := by
        rw [hp'.mem_iff]; simp
      exact ⟨_, (List.mem_filter.mp this).1, rfl, rfl⟩
    · obtain ⟨h1, x, hx, rfl, h2⟩ := h.sub p' hp1
      obtain ⟨y, hy, e1, e2⟩ := hm' x hx
      exact ⟨h1, y, hy, e1, e2.trans h2⟩
  · intro hfull y hy hyD hyX
    simp only at hy ⊢
    rw [f1.mem_iff, List.mem_cons]
    rcases hm y hy with ⟨e, -, -⟩ | ⟨x, hx, e1, e2, -⟩
    · exact .inl e
    · right
      rw [← e1]
      exact h.track hfull x hx (e2.trans hyD) (by rw [e1]; exact hyX)
  · intro p' hp1
    simp only
    obtain ⟨x, hx, e⟩ := List.mem_map.mp (h.exIn p' hp1)
    obtain ⟨y, hy, e1, -⟩ := hm' x hx
    rw [← e, ← e1]
    exact List.mem_map_of_mem hy
  · intro y hy hyD hyX
    simp only at hy ⊢
    rcases hm y hy with ⟨e, -, e3⟩ | ⟨x, hx, e1, e2, e3⟩
    · rw [if_pos e, e3]; simp
    · rw [e1.symm] at hyX
      have := e3 hyX
      subst this
      rw [tg x hx]
      exact List.mem_append_left _ (h.due x hx hyD hyX)
  · simp only [List.map_append, h.accEq, List.map_cons, List.map_nil, List.range_succ]
  · simp only [List.map_append, List.map_cons, List.map_nil]
    have e1 := hp'.map fun x : Item => if x.id = p then w.n else w.tag x.id
    simp only [List.map_cons, if_pos] at e1
    have e2 : (w.q.filter fun x => decide (x.send = D ∧ x.id ∉ X)).map (fun x => if x.id = p then w.n else w.tag x.id) =
        (w.q.filter fun x => decide (x.send = D ∧ x.id ∉ X)).map fun x => w.tag x.id :=
      List.map_congr_left fun x hx => tg x (List.mem_filter.mp hx).1
    rw [e2] at e1
    refine List.Perm.trans ?_ (List.Perm.append_left _ e1.symm)
    exact (List.Perm.append_right _ h.perm).trans ((List.perm_append_singleton _ _).trans List.perm_middle.symm)
  · intro e he hfl
    exact List.mem_append_left _ (h.logDue e he hfl)

theorem Inv.delayMsg (h : Inv full D X w) {w' : W} {ts p0 : Nat} {self : Option Nat}
    (hs : ∀ m, self = some m → m ∈ X) (hw : delayMsg D w ts self p0 = .ok w') : Inv full D X w' := by
  unfold Delay.delayMsg at hw
  simp only at hw
  have hp := fresh_not_mem p0 w.q
  generalize fresh p0 w.q = p at hp hw
  cases hf : fillSlot p w.slots with
  | none => rw [hf] at hw; cases hw
  | some slots' =>
    rw [hf] at hw
    have pX : p ∉ X := fun hx => hp (h.exIn p hx)
    cases self with
    | none =>
      cases hw
      refine h.insert hf hp (h.uniq.insert hp) ?_ ?_ ?_
      · intro y hy
        rcases mem_absInsert.mp hy with rfl | hy
        · exact .inl ⟨rfl, rfl, rfl⟩
        · exact .inr ⟨y, hy, rfl, rfl, fun _ => rfl⟩
      · intro x hx
        exact ⟨x, mem_absInsert.mpr (.inr hx), rfl, rfl⟩
      · exact filter_absInsert_pos (by simp [pX])
    | some m =>
      cases hw
      have mX := hs m rfl
      have hu1 : UniqueIds (setTs m (add32 ts w.delay) w.q) := by
        unfold UniqueIds; rw [setTs_ids]; exact h.uniq
      have hu2 := hu1.insert (x := ⟨p, add32 ts w.delay, 0, D⟩) (by rw [setTs_ids]; exact hp)
      refine h.insert hf hp ?_ ?_ ?_ ?_
      · unfold UniqueIds; rw [setTs_ids]; exact hu2
      · intro y hy
        rcases mem_setTs.mp hy with ⟨hy, hne⟩ | ⟨x, hx, e, rfl⟩
        · rcases mem_absInsert.mp hy with rfl | hy
          · exact .inl ⟨rfl, rfl, rfl⟩
          · rcases mem_setTs.mp hy with ⟨hy, hne⟩ | ⟨x, hx, e, rfl⟩
            · exact .inr ⟨y, hy, rfl, rfl, fun _ => rfl⟩
            · exact absurd e hne
        · rcases mem_absInsert.mp hx with rfl | hx
          · simp only at e; rw [e] at pX; exact absurd mX pX
          · rcases mem_setTs.mp hx with ⟨hy, hne⟩ | ⟨x', hx', e', rfl⟩
            · exact absurd e hne
            · exact .inr ⟨x', hx', rfl, rfl, fun hX => absurd (e' ▸ mX) hX⟩
      · intro x hx
        by_cases hxm : x.id = m
        · refine ⟨{ x with ts := ts }, mem_setTs.mpr (.inr ⟨{ x with ts := add32 ts w.delay }, ?_, hxm, rfl⟩), rfl, rfl⟩
          exact mem_absInsert.mpr (.inr (mem_setTs.mpr (.inr ⟨x, hx, hxm, rfl⟩)))
        · exact ⟨x, mem_setTs.mpr (.inl ⟨mem_absInsert.mpr (.inr (mem_setTs.mpr (.inl ⟨hx, hxm⟩))), hxm⟩), rfl, rfl⟩
      · rw [filter_setTs]
        · refine (filter_absInsert_pos (by simp [pX])).trans ?_
          rw [filter_setTs]
          · intro x _ e; simp [e, mX]
          · intro x _ e; simp [e, mX]
        · intro x _ e; simp [e, mX]
        · intro x _ e; simp [e, mX]

theorem Inv.other (h : Inv full D X w) {a : Other} (h1 : a.sendOf ≠ D)
    (h2 : ∀ p s, a = .cancel p s → p ∈ X → ∀ x ∈ w.q, x.id = p → x.send ≠ s) :
    Inv full D X (other w a) := by
  cases a with
  | sched ts s p0 u =>
    simp only [Other.sendOf] at h1
    simp only [Delay.other]
    have hp := fresh_not_mem p0 w.q
    generalize fresh p0 w.q = p at hp
    have tg : ∀ x ∈ w.q, (if x.id = p then u else w.tag x.id) = w.tag x.id := by
      intro x hx
      rw [if_neg]
      rintro rfl
      exact hp (List.mem_map_of_mem hx)
    have old : ∀ x ∈ absInsert ⟨p, ts, 0, s⟩ w.q, x.send = D → x ∈ w.q := by
      intro x hx hD
      rcases mem_absInsert.mp hx with rfl | hx
      · exact absurd hD h1
      · exact hx
    refine ⟨h.uniq.insert hp, h.len, h.nodup, ?_, ?_, ?_, ?_, h.accEq, ?_, h.logDue⟩
    · intro p' hp'
      obtain ⟨e, x, hx, e1, e2⟩ := h.sub p' hp'
      exact ⟨e, x, mem_absInsert.mpr (.inr hx), e1, e2⟩
    · intro hfull x hx hD hX
      exact h.track hfull x (old x hx hD) hD hX
    · intro p' hp'
      obtain ⟨x, hx, e⟩ := List.mem_map.mp (h.exIn p' hp')
      exact List.mem_map.mpr ⟨x, mem_absInsert.mpr (.inr hx), e⟩
    · intro x hx hD hX
      have hx := old x hx hD
      simp only
      rw [tg x hx]
      exact h.due x hx hD hX
    · simp only
      rw [filter_absInsert_neg (by simp [h1])]
      have e2 : (w.q.filter fun x => decide (x.send = D ∧ x.id ∉ X)).map (fun x => if x.id = p then u else w.tag x.id) =
          (w.q.filter fun x => decide (x.send = D ∧ x.id ∉ X)).map fun x => w.tag x.id :=
        List.map_congr_left fun x hx => tg x (List.mem_filter.mp hx).1
      rw [e2]
      exact h.perm
  | cancel p s =>
    simp only [Other.sendOf] at h1
    simp only [Delay.other]
    rcases remove_other h.uniq p s with ⟨x, hx, e1, e2, e3⟩ | e3
    · rw [e3]
      have pX : p ∉ X := fun hX => h2 p s rfl hX x hx e1 e2
      have keep : ∀ y ∈ w.q, y.id ≠ p → y ∈ w.q.filter fun y => y.id ≠ p := by
        intro y hy hne; rw [List.mem_filter]; exact ⟨hy, by simpa using hne⟩
      have notD : ∀ y ∈ w.q, y.send = D → y.id ≠ p := by
        intro y hy hD e
        have := h.uniq.eq hx hy (e1.trans e.symm)
        subst this
        exact h1 (e2.symm.trans hD)
      refine ⟨h.uniq.filter _, h.len, h.nodup, ?_, ?_, ?_, ?_, h.accEq, ?_, h.logDue⟩
      · intro p' hp'
        obtain ⟨e, y, hy, e1, e2⟩ := h.sub p' hp'
        exact ⟨e, y, keep y hy (notD y hy e2), e1, e2⟩
      · intro hfull y hy hD hX
        exact h.track hfull y (List.mem_filter.mp hy).1 hD hX
      · intro p' hp'
        obtain ⟨y, hy, e⟩ := List.mem_map.mp (h.exIn p' hp')
        refine List.mem_map.mpr ⟨y, keep y hy ?_, e⟩
        rintro rfl
        exact pX (e ▸ hp')
      · intro y hy hD hX
        exact h.due y (List.mem_filter.mp hy).1 hD hX
      · simp only
        rw [List.filter_filter, List.filter_congr (q := fun x => decide (x.send = D ∧ x.id ∉ X))]
        · exact h.perm
        · intro y hy
          by_cases hD : y.send = D
          · simp [notD y hy hD, hD]
          · simp [hD]
    · rw [e3]
      exact h

theorem Inv.dacts (loop : Prop) {p : Nat} {as : List DAct} : ∀ {w w' : W}, Inv full D (p :: X) w →
    (∀ x ∈ w.q, x.id = p → x.send = D) →
    (∀ a ∈ as, match a with
      | .other a => a.sendOf ≠ D ∧ ∀ p s, a = .cancel p s → p ∉ X
      | .back _ _ => loop) →
    dacts D w as = .ok w' → Inv full D (p :: X) w' ∧ w'.exec = w.exec ∧ w'.log = w.log ∧ w'.gone = w.gone ∧
      (¬ loop → w'.slots = w.slots) ∧ (∀ x ∈ w'.q, x.id = p → x.send = D) ∧
      (as = [] → w' = w) := by
  induction as with
  | nil => intro w w' h hK _ hw; cases hw; exact ⟨h, rfl, rfl, rfl, fun _ => rfl, hK, fun _ => rfl⟩
  | cons a as ih =>
    intro w w' h hK ha hw
    have pq := h.exIn p List.mem_cons_self
    cases a with
    | other a =>
      obtain ⟨h1, h2⟩ := ha _ List.mem_cons_self
      have hI : Inv full D (p :: X) (Delay.other w a) := by
        refine h.other h1 ?_
        rintro p' s rfl hp' x hx e
        rcases List.mem_cons.mp hp' with rfl | hp'
        · rw [hK x hx e]; exact fun e => h1 e.symm
        · exact absurd hp' (h2 p' s rfl)
      have hK' : ∀ x ∈ (Delay.other w a).q, x.id = p → x.send = D := by
        intro x hx e
        cases a with
        | sched ts s p0 u =>
          simp only [Delay.other] at hx
          rcases mem_absInsert.mp hx with rfl | hx
          · simp only at e; rw [← e] at pq; exact absurd pq (fresh_not_mem p0 w.q)
          · exact hK x hx e
        | cancel p0 s =>
          simp only [Delay.other] at hx
          rcases remove_other h.uniq p0 s with ⟨y, hy, e1, e2, e3⟩ | e3
          · rw [e3] at hx
            exact hK x (List.mem_filter.mp hx).1 e
          · rw [e3] at hx
            exact hK x hx e
      obtain ⟨i1, i2, i3, i4, i5, i6, -⟩ := ih hI hK' (fun a' h' => ha a' (List.mem_cons_of_mem _ h')) hw
      refine ⟨i1, i2.trans ?_, i3.trans ?_, i4.trans ?_, fun hl => (i5 hl).trans ?_, i6, fun h => by cases h⟩
      all_goals cases a <;> rfl
    | back ts p0 =>
      have hl := ha _ List.mem_cons_self
      simp only at hl
      simp only [Delay.dacts, bind, Except.bind] at hw
      split at hw
      · cases hw
      · rename_i w1 h1
        have hI := h.delayMsg (by simp) h1
        have hw1 : w1.exec = w.exec ∧ w1.log = w.log ∧ w1.gone = w.gone ∧ ∀ x ∈ w1.q, x.id = p → x.send = D := by
          unfold Delay.delayMsg at h1
          simp only at h1
          split at h1
          · cases h1
          · cases h1
            refine ⟨rfl, rfl, rfl, ?_⟩
            intro x hx e
            simp only at hx
            rcases mem_absInsert.mp hx with rfl | hx
            · rfl
            · exact hK x hx e
        obtain ⟨i1, i2, i3, i4, i5, i6, -⟩ := ih hI hw1.2.2.2 (fun a' h' => ha a' (List.mem_cons_of_mem _ h')) hw
        exact ⟨i1, i2.trans hw1.1, i3.trans hw1.2.1, i4.trans hw1.2.2.1, fun hn => absurd hl hn, i6, fun h => by cases h⟩

/-- sending a waiting message (with its timestamp changed to `ts` when flushed) -/
theorem Inv.send (h : Inv full D X w) {p ts : Nat} {b : Bool} {x : Item} (hx : x ∈ w.q) (xp : x.id = p) (xD : x.send = D)
    (pX : p ∉ X) (hb : b = false → (w.tag p, ts) ∈ w.acc) :
    Inv full D (p :: X) (send { w with q := setTs p ts w.q } p ts b) := by
  obtain ⟨c1, c2⟩ := clearExecuting_live p w.slots
  have ne : ∀ y ∈ w.q, y.send = D → y.id ∉ p :: X → y ∈ setTs p ts w.q := by
    intro y hy _ hX
    exact mem_setTs.mpr (.inl ⟨hy, fun e => hX (by rw [e]; simp)⟩)
  have back : ∀ y ∈ setTs p ts w.q, y.id ∉ p :: X → y ∈ w.q := by
    intro y hy hX
    rcases mem_setTs.mp hy with ⟨hy, -⟩ | ⟨x, hx, e, rfl⟩
    · exact hy
    · exact absurd (by simp [e]) hX
  refine ⟨?_, by simp only [Delay.send]; rw [c2]; exact h.len, ?_, ?_, ?_, ?_, ?_, h.accEq, ?_, ?_⟩
  · simp only [Delay.send]
    unfold UniqueIds; rw [setTs_ids]; exact h.uniq
  · simp only [Delay.send]; rw [c1]; exact h.nodup.erase _
  · intro p' hp'
    simp only [Delay.send] at hp' ⊢
    rw [c1, h.nodup.mem_erase_iff] at hp'
    obtain ⟨e1, y, hy, e2, e3⟩ := h.sub p' hp'.2
    have nX : p' ∉ p :: X := by
      rw [List.mem_cons, not_or]; exact ⟨hp'.1, e1⟩
    refine ⟨nX, y, ne y hy e3 (by rw [e2]; exact nX), e2, e3⟩
  · intro hfull y hy hD hX
    simp only [Delay.send] at hy ⊢
    rw [c1, h.nodup.mem_erase_iff]
    have hy := back y hy hX
    rw [List.mem_cons, not_or] at hX
    exact ⟨hX.1, h.track hfull y hy hD hX.2⟩
  · intro p' hp'
    simp only [Delay.send]
    rw [setTs_ids]
    rcases List.mem_cons.mp hp' with rfl | hp'
    · rw [← xp]; exact List.mem_map_of_mem hx
    · exact h.exIn p' hp'
  · intro y hy hD hX
    simp only [Delay.send] at hy ⊢
    have hy := back y hy hX
    rw [List.mem_cons, not_or] at hX
    exact h.due y hy hD hX.2
  · simp only [Delay.send, List.map_append, List.map_cons, List.map_nil]
    rw [filter_setTs]
    · refine h.perm.trans ?_
      have key : (w.q.filter fun x => decide (x.send = D ∧ x.id ∉ X)).Perm
          (x :: w.q.filter fun x => decide (x.send = D ∧ x.id ∉ p :: X)) := by
        have hmem : x ∈ w.q.filter fun x => decide (x.send = D ∧ x.id ∉ X) := by
          rw [List.mem_filter]
          refine ⟨hx, ?_⟩
          rw [xp]; simp [xD, pX]
        refine (List.perm_cons_erase hmem).trans (List.Perm.cons x ?_)
        have hnd : (w.q.filter fun x => decide (x.send = D ∧ x.id ∉ X)).Nodup :=
          ((h.uniq.filter _).pw).imp fun hne e => hne (by rw [e])
        rw [List.Nodup.erase_eq_filter hnd, List.filter_filter]
        rw [List.filter_congr]
        intro y hy
        rw [Bool.eq_iff_iff]
        simp only [bne_iff_ne, Bool.and_eq_true, decide_eq_true_eq, List.mem_cons, not_or, ne_eq]
        constructor
        · rintro ⟨h1, h2, h3⟩
          refine ⟨h2, fun e => h1 ?_, h3⟩
          exact h.uniq.eq hy hx (e.trans xp.symm)
        · rintro ⟨h1, h2, h3⟩
          exact ⟨fun e => h2 (by rw [e]; exact xp), h1, h3⟩
      have key := key.map fun x => w.tag x.id
      rw [List.map_cons, xp] at key
      refine (List.Perm.append_left _ key).trans ?_
      simp only [List.append_assoc, List.singleton_append]
      refine List.Perm.append_left _ ?_
      exact List.perm_middle
    · intro y _ e; simp [e]
    · intro y _ e; simp [e]
  · intro e he hfl
    simp only [Delay.send] at he
    rcases List.mem_append.mp he with he | he
    · exact h.logDue e he hfl
    · rw [List.mem_singleton] at he; subst he; exact hb hfl

/-- removing the message that has been sent -/
theorem Inv.unsend {p : Nat} (h : Inv full D (p :: X) w) (pX : p ∉ X) :
    Inv full D X { w with q := w.q.filter fun y => y.id ≠ p } := by
  have back : ∀ y ∈ w.q.filter fun y => decide (y.id ≠ p), y ∈ w.q ∧ y.id ≠ p := by
    intro y hy
    rw [List.mem_filter] at hy
    exact ⟨hy.1, by simpa using hy.2⟩
  have keep : ∀ y ∈ w.q, y.id ≠ p → y ∈ w.q.filter fun y => decide (y.id ≠ p) := by
    intro y hy hne; rw [List.mem_filter]; exact ⟨hy, by simpa using hne⟩
  refine ⟨h.uniq.filter _, h.len, h.nodup, ?_, ?_, ?_, ?_, h.accEq, ?_, h.logDue⟩
  · intro p' hp'
    obtain ⟨e, y, hy, e1, e2⟩ := h.sub p' hp'
    rw [List.mem_cons, not_or] at e
    exact ⟨e.2, y, keep y hy (by rw [e1]; exact e.1), e1, e2⟩
  · intro hfull y hy hD hX
    obtain ⟨h1, h2⟩ := back y hy
    exact h.track hfull y h1 hD (by rw [List.mem_cons, not_or]; exact ⟨h2, hX⟩)
  · intro p' hp'
    obtain ⟨y, hy, e⟩ := List.mem_map.mp (h.exIn p' (List.mem_cons_of_mem _ hp'))
    refine List.mem_map.mpr ⟨y, keep y hy ?_, e⟩
    intro e'
    exact pX (e' ▸ e ▸ hp')
  · intro y hy hD hX
    obtain ⟨h1, h2⟩ := back y hy
    exact h.due y h1 hD (by rw [List.mem_cons, not_or]; exact ⟨h2, hX⟩)
  · simp only
    rw [List.filter_filter, List.filter_congr (q := fun y => decide (y.send = D ∧ y.id ∉ p :: X))]
    · exact h.perm
    · intro y _
      rw [Bool.eq_iff_iff]
      simp only [Bool.and_eq_true, decide_eq_true_eq, List.mem_cons, not_or, ne_eq]
      tauto


theorem Inv.flushAt (h : Inv full D X w) {w' : W} {ts i : Nat} {during : Nat → List DAct} (loop : Prop)
    (hd : ∀ a ∈ during i, match a with
      | .other a => a.sendOf ≠ D ∧ ∀ p s, a = .cancel p s → p ∉ X
      | .back _ _ => loop)
    (hw : flushAt D ts during w i = .ok w') :
    Inv full D X w' ∧ w'.exec = w.exec ∧ w'.gone = w.gone ∧
      (∃ L, w'.log = w.log ++ L ∧ ∀ e ∈ L, e.flushed = true ∧ e.ts = ts) ∧
      (¬ loop → w'.slots[i]?.join = none ∧ ∀ j : Nat, w.slots[j]?.join = none → w'.slots[j]?.join = none) ∧
      (during i = [] → w'.tag = w.tag ∧ w'.q = w.q.filter (fun x => some x.id ≠ w.slots[i]?.join)) := by
  unfold Delay.flushAt at hw
  cases hs : w.slots[i]?.join with
  | none =>
    rw [hs] at hw
    cases hw
    refine ⟨h, rfl, rfl, ⟨[], by simp, by simp⟩, fun _ => ⟨hs, fun j hj => hj⟩, fun _ => ⟨rfl, ?_⟩⟩
    symm
    rw [List.filter_eq_self]
    intro x _
    simp
  | some p =>
    rw [hs] at hw
    simp only [bind, Except.bind] at hw
    have hp : p ∈ live w.slots := by
      rw [mem_live]; rw [Option.join_eq_some_iff] at hs; exact List.mem_of_getElem? hs
    obtain ⟨pX, x, hx, xp, xD⟩ := h.sub p hp
    have h1 := h.send (ts := ts) (b := true) hx xp xD pX (by simp)
    split at hw
    · cases hw
    · rename_i w1 hw1
      cases hw
      have hK : ∀ x ∈ setTs p ts w.q, x.id = p → x.send = D := by
        intro y hy e
        rcases mem_setTs.mp hy with ⟨-, hne⟩ | ⟨z, hz, e1, rfl⟩
        · exact absurd e hne
        · have := h.uniq.eq hz hx (e1.trans xp.symm)
          subst this
          exact xD
      obtain ⟨i1, i2, i3, i4, i5, i6, i7⟩ := h1.dacts loop hK hd hw1
      have hrem : (absRemove p (some D) w1.q).2 = w1.q.filter fun y => y.id ≠ p := by
        obtain ⟨y, hy, e⟩ := List.mem_map.mp (i1.exIn p List.mem_cons_self)
        have := remove_eq i1.uniq hy
        rw [e, i6 y hy e] at this
        rw [this]
      have i8 := i1.unsend pX
      rw [hrem]
      refine ⟨i8, i2, i4, ⟨[⟨w.tag p, ts, true⟩], i3, by simp⟩, ?_, ?_⟩
      · intro hl
        have := i5 hl
        simp only [Delay.send] at this
        simp only
        rw [this]
        exact ⟨clearExecuting_at h.nodup hs, fun j hj => clearExecuting_none hj⟩
      · intro hd0
        have := i7 hd0
        rw [this]
        refine ⟨rfl, ?_⟩
        simp only [Delay.send]
        rw [filter_setTs]
        · refine List.filter_congr fun y _ => ?_
          simp
        · intro y _ e; simp [e]
        · intro y _ e; simp [e]

theorem Inv.flushLoop {ts : Nat} {during : Nat → List DAct} (loop : Prop) (is : List Nat)
    (hd : ∀ i, ∀ a ∈ during i, match a with
      | .other a => a.sendOf ≠ D ∧ ∀ p s, a = .cancel p s → p ∉ X
      | .back _ _ => loop) : ∀ {w w' : W}, Inv full D X w →
    flushLoop D ts during w is = .ok w' →
    Inv full D X w' ∧ w'.exec = w.exec ∧ w'.gone = w.gone ∧
      (∃ L, w'.log = w.log ++ L ∧ ∀ e ∈ L, e.flushed = true ∧ e.ts = ts) ∧
      (¬ loop → ∀ j : Nat, (j ∈ is ∨ w.slots[j]?.join = none) → w'.slots[j]?.join = none) ∧
      ((∀ i, during i = []) → w'.tag = w.tag ∧ w'.q.filter (fun x => ¬ (x.send = D ∧ x.id ∉ X)) =
        w.q.filter (fun x => ¬ (x.send = D ∧ x.id ∉ X))) := by
  induction is with
  | nil =>
    intro w w' h hw
    cases hw
    exact ⟨h, rfl, rfl, ⟨[], by simp, by simp⟩, fun _ j hj => hj.resolve_left (by simp), fun _ => ⟨rfl, rfl⟩⟩
  | cons i is ih =>
    intro w w' h hw
    simp only [Delay.flushLoop, bind, Except.bind] at hw
    split at hw
    · cases hw
    · rename_i w1 hw1
      obtain ⟨a1, a2, a3, ⟨L1, a4, a5⟩, a6, a7⟩ := h.flushAt loop (hd i) hw1
      obtain ⟨b1, b2, b3, ⟨L2, b4, b5⟩, b6, b7⟩ := ih a1 hw
      refine ⟨b1, b2.trans a2, b3.trans a3, ⟨L1 ++ L2, by rw [b4, a4, List.append_assoc], ?_⟩, ?_, ?_⟩
      · intro e he
        rcases List.mem_append.mp he with he | he
        · exact a5 e he
        · exact b5 e he
      · intro hl j hj
        refine b6 hl j ?_
        rcases hj with hj | hj
        · rcases List.mem_cons.mp hj with rfl | hj
          · exact .inr (a6 hl).1
          · exact .inl hj
        · exact .inr ((a6 hl).2 j hj)
      · intro hd0
        obtain ⟨c1, c2⟩ := b7 hd0
        obtain ⟨d1, d2⟩ := a7 (hd0 i)
        refine ⟨c1.trans d1, c2.trans ?_⟩
        rw [d2, List.filter_filter]
        refine List.filter_congr fun x hx => ?_
        cases hs : w.slots[i]?.join with
        | none => simp
        | some p =>
          have hp : p ∈ live w.slots := by
            rw [mem_live]; rw [Option.join_eq_some_iff] at hs; exact List.mem_of_getElem? hs
          obtain ⟨pX, y, hy, yp, yD⟩ := h.sub p hp
          by_cases e : x.id = p
          · have := h.uniq.eq hx hy (e.trans yp.symm)
            subst this
            simp [e, yD, pX]
          · simp [e]

theorem live_replicate : live (List.replicate maxMessages none) = [] := by decide

theorem live_nil_of {ss : List (Option Nat)} (h : ∀ j : Nat, ss[j]?.join = none) : live ss = [] := by
  rw [List.eq_nil_iff_forall_not_mem]
  intro p hp
  rw [mem_live, List.mem_iff_getElem?] at hp
  obtain ⟨j, hj⟩ := hp
  have := h j
  rw [hj] at this
  cases this

theorem Inv.wipe (h : Inv full D X w) (hf : full → live w.slots = []) :
    Inv full D X { w with slots := List.replicate maxMessages none } := by
  refine ⟨h.uniq, by simp, by simp only [live_replicate]; exact List.nodup_nil, by simp [live_replicate], ?_, h.exIn, h.due,
    h.accEq, h.perm, h.logDue⟩
  intro hfull x hx hD hX
  have := h.track hfull x hx hD hX
  rw [hf hfull] at this
  cases this

theorem Inv.flush (h : Inv full D X w) {w' : W} {ts : Nat} {during : Nat → List DAct} (loop : Prop) (hfl : full → ¬ loop)
    (hd : ∀ i, ∀ a ∈ during i, match a with
      | .other a => a.sendOf ≠ D ∧ ∀ p s, a = .cancel p s → p ∉ X
      | .back _ _ => loop) (hw : flush D ts during w = .ok w') :
    Inv full D X w' ∧ w'.exec = w.exec ∧ w'.gone = w.gone ∧ live w'.slots = [] ∧
      (∃ L, w'.log = w.log ++ L ∧ ∀ e ∈ L, e.flushed = true ∧ e.ts = ts) ∧
      ((∀ i, during i = []) → w'.tag = w.tag ∧ w'.q.filter (fun x => ¬ (x.send = D ∧ x.id ∉ X)) =
        w.q.filter (fun x => ¬ (x.send = D ∧ x.id ∉ X))) := by
  simp only [Delay.flush, bind, Except.bind] at hw
  split at hw
  · cases hw
  · rename_i w1 hw1
    cases hw
    obtain ⟨b1, b2, b3, b4, b6, b7⟩ := Inv.flushLoop loop _ hd h hw1
    refine ⟨b1.wipe ?_, b2, b3, live_replicate, b4, b7⟩
    intro hfull
    refine live_nil_of fun j => b6 (hfl hfull) j ?_
    by_cases hj : j < maxMessages
    · exact .inl (List.mem_range.mpr hj)
    · right
      rw [List.getElem?_eq_none (by rw [h.len]; omega)]
      rfl

/-! ### clear -/

/-- the loop of `clear` over the slots -/
def clearOne (D : Nat) (w : W) (s : Option Nat) : W :=
  match s with
  | none => w
  | some p => { w with q := (absRemove p (some D) w.q).2,
                       gone := w.gone ++ (if (absRemove p (some D) w.q).1 then [w.tag p] else []) }

theorem clear_fold (D : Nat) (w : W) (h : w.slots.length = maxMessages) :
    (List.range maxMessages).foldl (clearAt D) w = w.slots.foldl (clearOne D) w := by
  have key : ∀ (ss : List (Option Nat)) (k : Nat) (w : W), (∀ j : Nat, j < ss.length → w.slots[k + j]?.join = ss[j]?.join) →
      ((List.range ss.length).map (k + ·)).foldl (clearAt D) w = ss.foldl (clearOne D) w := by
    intro ss
    induction ss with
    | nil => intro k w _; rfl
    | cons s ss ih =>
      intro k w hw
      rw [List.length_cons, List.range_succ_eq_map, List.map_cons, List.foldl_cons, List.foldl_cons, List.map_map]
      have h0 := hw 0 (by simp)
      simp only [Nat.add_zero, List.getElem?_cons_zero, Option.join_some] at h0
      have e : clearAt D w k = clearOne D w s := by
        unfold clearAt clearOne
        rw [h0]
        cases s <;> rfl
      have hs : (clearOne D w s).slots = w.slots := by cases s <;> rfl
      rw [Nat.add_zero, e]
      have := ih (k + 1) (clearOne D w s) (by
        intro j hj
        rw [hs]
        have := hw (j + 1) (by simpa using hj)
        rw [Nat.add_assoc, Nat.add_comm 1 j]
        simpa using this)
      rw [← this]
      congr 1
      refine List.map_congr_left fun j _ => ?_
      simp only [Function.comp]
      omega
  have := key w.slots 0 w (by intro j _; simp)
  rw [← this, h]
  simp

theorem clearOne_fold (D : Nat) (ss : List (Option Nat)) : ∀ (w : W), UniqueIds w.q → (live ss).Nodup →
    (∀ p ∈ live ss, ∃ x ∈ w.q, x.id = p ∧ x.send = D) →
    ss.foldl (clearOne D) w = { w with q := w.q.filter (fun x => x.id ∉ live ss), gone := w.gone ++ (live ss).map w.tag } := by
  induction ss with
  | nil =>
    intro w _ _ _
    have : live [] = [] := rfl
    simp [this]
  | cons s ss ih =>
    intro w hu hn hp
    rw [List.foldl_cons]
    cases s with
    | none =>
      have : live (none :: ss) = live ss := by simp [live]
      rw [this] at hn hp ⊢
      exact ih w hu hn hp
    | some p =>
      have e : live (some p :: ss) = p :: live ss := by simp [live]
      rw [e] at hn hp ⊢
      rw [List.nodup_cons] at hn
      obtain ⟨x, hx, xp, xD⟩ := hp p List.mem_cons_self
      subst xp xD
      have e1 : clearOne x.send w (some x.id) =
          { w with q := w.q.filter (fun y => y.id ≠ x.id), gone := w.gone ++ [w.tag x.id] } := by
        simp only [clearOne, remove_eq hu hx, if_true]
      rw [e1, ih _ (hu.filter _) hn.2]
      · simp only [List.filter_filter, List.append_assoc, List.singleton_append, List.map_cons]
        congr 1
        refine List.filter_congr fun y _ => ?_
        rw [Bool.eq_iff_iff]
        simp only [Bool.and_eq_true, decide_eq_true_eq, List.mem_cons, not_or, ne_eq]
        tauto
      · intro p' hp'
        obtain ⟨y, hy, yp, yD⟩ := hp p' (List.mem_cons_of_mem _ hp')
        refine ⟨y, ?_, yp, yD⟩
        rw [List.mem_filter]
        refine ⟨hy, ?_⟩
        simp only [ne_eq, decide_eq_true_eq]
        rintro e
        rw [← yp, e] at hp'
        exact hn.1 hp'

theorem clear_eq (h : Inv full D X w) :
    clear D w = { w with q := w.q.filter (fun x => x.id ∉ live w.slots), gone := w.gone ++ (live w.slots).map w.tag,
                         slots := List.replicate maxMessages none } := by
  unfold clear
  rw [clear_fold D w h.len, clearOne_fold D w.slots w h.uniq h.nodup fun p hp => (h.sub p hp).2]

/-- the messages in the slots, as messages of the queue -/
theorem Inv.slots_perm (h : Inv full D X w) :
    ((w.q.filter fun x => decide (x.send = D ∧ x.id ∉ X ∧ x.id ∈ live w.slots)).map (·.id)).Perm (live w.slots) := by
  rw [List.perm_ext_iff_of_nodup (h.uniq.filter _) h.nodup]
  intro p
  rw [List.mem_map]
  constructor
  · rintro ⟨x, hx, rfl⟩
    have := (List.mem_filter.mp hx).2
    simp only [decide_eq_true_eq] at this
    exact this.2.2
  · intro hp
    obtain ⟨pX, x, hx, xp, xD⟩ := h.sub p hp
    refine ⟨x, ?_, xp⟩
    rw [List.mem_filter]
    refine ⟨hx, ?_⟩
    simp only [decide_eq_true_eq]
    rw [xp]
    exact ⟨xD, pX, hp⟩

theorem Inv.clear (h : Inv full D X w) : Inv full D X (clear D w) := by
  rw [clear_eq h]
  have back : ∀ x ∈ w.q.filter (fun x => decide (x.id ∉ live w.slots)), x ∈ w.q ∧ x.id ∉ live w.slots := by
    intro x hx
    rw [List.mem_filter] at hx
    exact ⟨hx.1, by simpa using hx.2⟩
  refine ⟨h.uniq.filter _, by simp, by simp only [live_replicate]; exact List.nodup_nil, by simp [live_replicate], ?_, ?_, ?_,
    h.accEq, ?_, h.logDue⟩
  · intro hfull x hx hD hX
    obtain ⟨h1, h2⟩ := back x hx
    exact absurd (h.track hfull x h1 hD hX) h2
  · intro p hp
    obtain ⟨x, hx, e⟩ := List.mem_map.mp (h.exIn p hp)
    refine List.mem_map.mpr ⟨x, ?_, e⟩
    rw [List.mem_filter]
    refine ⟨hx, ?_⟩
    simp only [decide_eq_true_eq]
    intro hl
    exact (h.sub _ hl).1 (e ▸ hp)
  · intro x hx hD hX
    exact h.due x (back x hx).1 hD hX
  · simp only [List.filter_filter]
    refine h.perm.trans ?_
    have e1 := (List.filter_append_perm (fun x : Item => decide (x.id ∈ live w.slots))
      (w.q.filter fun x => decide (x.send = D ∧ x.id ∉ X))).symm
    rw [List.filter_filter, List.filter_filter] at e1
    have e2 := h.slots_perm.map w.tag
    rw [List.map_map] at e2
    have e3 := e1.map fun x => w.tag x.id
    rw [List.map_append] at e3
    have e4 : w.q.filter (fun a => decide (a.id ∈ live w.slots) && decide (a.send = D ∧ a.id ∉ X)) =
        w.q.filter (fun x => decide (x.send = D ∧ x.id ∉ X ∧ x.id ∈ live w.slots)) := by
      refine List.filter_congr fun x _ => ?_
      rw [Bool.eq_iff_iff]
      simp only [Bool.and_eq_true, decide_eq_true_eq]
      tauto
    rw [e4] at e3
    · refine (List.Perm.append_left _ (e3.trans (List.Perm.append_right _ e2))).trans ?_
      simp only [List.append_assoc]
      refine List.Perm.append_left _ (List.Perm.append_left _ (List.Perm.append_left _ ?_))
      rw [List.filter_congr]
      intro x _
      rw [Bool.eq_iff_iff]
      simp only [Bool.and_eq_true, Bool.not_eq_true', decide_eq_false_iff_not, decide_eq_true_eq]
      tauto

/-! ### dispatch -/

theorem setTs_same {q : List Item} (hu : UniqueIds q) {x : Item} (hx : x ∈ q) : setTs x.id x.ts q = q := by
  unfold setTs
  conv_rhs => rw [← List.map_id q]
  refine List.map_congr_left fun y hy => ?_
  split
  · rename_i e
    have := hu.eq hy hx e
    subst this
    rfl
  · rfl

theorem Inv.exclude (h : Inv full D X w) {x : Item} (hx : x ∈ w.q) (hD : x.send ≠ D) : Inv full D (x.id :: X) w := by
  have ne : ∀ y ∈ w.q, y.send = D → y.id ≠ x.id := by
    intro y hy yD e
    have := h.uniq.eq hy hx e
    subst this
    exact hD yD
  refine ⟨h.uniq, h.len, h.nodup, ?_, ?_, ?_, ?_, h.accEq, ?_, h.logDue⟩
  · intro p hp
    obtain ⟨e, y, hy, yp, yD⟩ := h.sub p hp
    refine ⟨?_, y, hy, yp, yD⟩
    rw [List.mem_cons, not_or]
    exact ⟨by rw [← yp]; exact ne y hy yD, e⟩
  · intro hfull y hy yD hX
    rw [List.mem_cons, not_or] at hX
    exact h.track hfull y hy yD hX.2
  · intro p hp
    rcases List.mem_cons.mp hp with rfl | hp
    · exact List.mem_map_of_mem hx
    · exact h.exIn p hp
  · intro y hy yD hX
    rw [List.mem_cons, not_or] at hX
    exact h.due y hy yD hX.2
  · rw [List.filter_congr (q := fun x => decide (x.send = D ∧ x.id ∉ X))]
    · exact h.perm
    · intro y hy
      rw [Bool.eq_iff_iff]
      simp only [decide_eq_true_eq, List.mem_cons, not_or]
      constructor
      · rintro ⟨h1, -, h2⟩; exact ⟨h1, h2⟩
      · rintro ⟨h1, h2⟩; exact ⟨h1, ne y hy h1, h2⟩

theorem Inv.congr (h : Inv full D X w) {w' : W} (e1 : w'.q = w.q) (e2 : w'.tag = w.tag) (e3 : w'.slots = w.slots)
    (e4 : w'.n = w.n) (e5 : w'.acc = w.acc) (e6 : w'.log = w.log) (e7 : w'.gone = w.gone) : Inv full D X w' := by
  obtain ⟨q, tag, delay, slots, exec, n, acc, log, gone⟩ := w
  obtain ⟨q', tag', delay', slots', exec', n', acc', log', gone'⟩ := w'
  simp only at e1 e2 e3 e4 e5 e6 e7
  subst e1 e2 e3 e4 e5 e6 e7
  exact ⟨h.uniq, h.len, h.nodup, h.sub, h.track, h.exIn, h.due, h.accEq, h.perm, h.logDue⟩

theorem Inv.tail {x : Item} (h : Inv full D [x.id] w) (hx : w.q.head? = some x) : Inv full D [] { w with q := w.q.tail, exec := none } := by
  have h1 := h.unsend (X := []) (by simp)
  refine h1.congr ?_ rfl rfl rfl rfl rfl rfl
  simp only
  have hu := h.uniq.pw
  cases hq : w.q with
  | nil => rw [hq] at hx; cases hx
  | cons y q =>
    rw [hq] at hx hu
    simp only [List.head?_cons, Option.some.injEq] at hx
    subst hx
    rw [List.pairwise_cons] at hu
    rw [List.tail_cons, List.filter_cons, if_neg (by simp)]
    symm
    rw [List.filter_eq_self]
    intro z hz
    simpa using (hu.1 z hz).symm

theorem step_inv {loop : Prop} (h : Inv (¬ loop) D w.exec.toList w) {e : Ev} {w' : W} (he : EvOk loop D w e)
    (hw : step D w e = .ok w') : Inv (¬ loop) D w'.exec.toList w' := by
  cases e with
  | msg ts direct p =>
    simp only [step] at hw
    have h1 := h.delayMsg (by
      intro m hm
      split at hm
      · rw [hm]; simp
      · cases hm) hw
    have : w'.exec = w.exec := by
      unfold delayMsg at hw
      simp only at hw
      split at hw
      · cases hw
      · cases hw; rfl
    rw [this]
    exact h1
  | clear =>
    cases hw
    have := h.clear
    rw [clear_eq h] at this ⊢
    exact this
  | flush ts during =>
    simp only [step] at hw
    obtain ⟨h1, h2, -⟩ := h.flush loop id (by
      intro i a ha
      have := he i a ha
      cases a with
      | other a =>
        refine ⟨this.1, fun p s hps => ?_⟩
        have := this.2 p s hps
        intro hm
        rw [Option.mem_toList] at hm
        exact this hm
      | back ts p => exact this) hw
    rw [h2]
    exact h1
  | setDelay d => cases hw; exact h.congr rfl rfl rfl rfl rfl rfl rfl
  | other a =>
    cases hw
    have := h.other (a := a) he.1 (by
      intro p s hps hm
      rw [Option.mem_toList] at hm
      exact absurd hm (he.2 p s hps))
    cases a <;> exact this
  | start =>
    simp only [EvOk] at he
    rw [he] at h
    simp only [step] at hw
    cases hq : w.q.head? with
    | none =>
      rw [hq] at hw
      cases hw
      rw [he]
      exact h
    | some x =>
      rw [hq] at hw
      simp only [Except.ok.injEq] at hw
      have hx : x ∈ w.q := List.mem_of_head? hq
      by_cases hD : x.send = D
      · rw [if_pos hD] at hw
        subst hw
        have := h.send (p := x.id) (ts := x.ts) (b := false) hx rfl hD (by simp) (fun _ => h.due x hx hD (by simp))
        rw [setTs_same h.uniq hx] at this
        exact this.congr rfl rfl rfl rfl rfl rfl rfl
      · rw [if_neg hD] at hw
        subst hw
        exact (h.exclude hx hD).congr rfl rfl rfl rfl rfl rfl rfl
  | finish =>
    obtain ⟨x, h1, h2⟩ := he
    cases hw
    rw [h2] at h
    exact h.tail h1

theorem reach_inv {loop : Prop} {d0 : Nat} (h : Reach loop D d0 w) : Inv (¬ loop) D w.exec.toList w := by
  induction h with
  | init => exact inv_init d0
  | next h he hw ih => exact step_inv ih he hw

/-! ### the property -/

theorem waiting_eq (D : Nat) (w : W) : waiting D w = w.q.filter fun x => x.send = D ∧ x.id ∉ w.exec.toList := by
  unfold waiting
  refine List.filter_congr fun x _ => ?_
  rw [Bool.eq_iff_iff]
  simp only [decide_eq_true_eq, Option.mem_toList, ne_eq, eq_comm, Option.mem_def]

theorem others_eq (D : Nat) (w : W) : others D w = w.q.filter fun x => ¬ (x.send = D ∧ x.id ∉ w.exec.toList) := by
  unfold others
  refine List.filter_congr fun x _ => ?_
  rw [Bool.eq_iff_iff]
  simp only [decide_eq_true_eq, Option.mem_toList, ne_eq, eq_comm, Option.mem_def]

/-- **C21**, exactly once: after every history, every message ever accepted by the delay object is in exactly one of three
places, and there only once: emitted, cleared, or still waiting in the queue.  (Also when flushed messages come straight back.) -/
theorem delay_exactly_once {d0 : Nat} (h : Reach True D d0 w) :
    (List.range w.n).Perm (w.log.map (·.uid) ++ w.gone ++ waitingUids D w) := by
  have := (reach_inv h)
  rw [← this.accEq]
  unfold waitingUids
  rw [waiting_eq]
  exact this.perm

/-- **C21**, time: a message that was not flushed is emitted with the timestamp it was given when it was accepted (its own
plus the delay in force at that moment), which also is the timestamp under which it waits in the queue -/
theorem delay_time {d0 : Nat} (h : Reach True D d0 w) :
    (∀ e ∈ w.log, e.flushed = false → (e.uid, e.ts) ∈ w.acc) ∧
    (∀ x ∈ waiting D w, (w.tag x.id, x.ts) ∈ w.acc) ∧
    (∀ ts direct p w', step D w (.msg ts direct p) = .ok w' → w'.acc = w.acc ++ [(w.n, (ts + w.delay) % 2 ^ 32)]) := by
  have hI := (reach_inv h)
  refine ⟨hI.logDue, ?_, ?_⟩
  · intro x hx
    rw [waiting_eq, List.mem_filter] at hx
    simp only [decide_eq_true_eq] at hx
    exact hI.due x hx.1 hx.2.1 hx.2.2
  · intro ts direct p w' hw
    simp only [step] at hw
    unfold delayMsg at hw
    simp only at hw
    split at hw
    · cases hw
    · cases hw; rfl

/-- **C21**, acceptance: as long as fewer than 8 messages are waiting, a new one is accepted -/
theorem delay_accepts {d0 : Nat} (h : Reach True D d0 w) (h8 : (waiting D w).length < 8) (ts : Nat) (direct : Bool) (p : Nat) :
    ∃ w', step D w (.msg ts direct p) = .ok w' := by
  have hI := (reach_inv h)
  have hl : (live w.slots).length < w.slots.length := by
    rw [hI.len]
    refine Nat.lt_of_le_of_lt ?_ h8
    rw [← hI.slots_perm.length_eq, List.length_map, waiting_eq]
    have : (w.q.filter fun x => decide (x.send = D ∧ x.id ∉ w.exec.toList ∧ x.id ∈ live w.slots)).Sublist
        (w.q.filter fun x => decide (x.send = D ∧ x.id ∉ w.exec.toList)) := by
      refine List.monotone_filter_right _ ?_
      intro x hx
      simp only [decide_eq_true_eq] at hx ⊢
      exact ⟨hx.1, hx.2.1⟩
    exact this.length_le
  obtain ⟨ss, hs⟩ := fillSlot_ok (p := fresh p w.q) hl
  exact ⟨_, by simp only [step, delayMsg, hs]; rfl⟩

/-- **C21**, clear (for histories in which flushed messages do not come straight back): everything waiting is cancelled, nothing is
emitted, and every other message in the queue stays where it is -/
theorem clear_cancels_partial {d0 : Nat} (h : Reach False D d0 w) {w' : W} (hw : step D w .clear = .ok w') :
    waiting D w' = [] ∧ w'.log = w.log ∧ (∃ L, w'.gone = w.gone ++ L ∧ L.Perm (waitingUids D w)) ∧
    others D w' = others D w ∧ w'.q = others D w := by
  have hI := (reach_inv h)
  simp only [not_false_eq_true] at hI
  cases hw
  rw [clear_eq hI]
  have e1 : w.q.filter (fun x => decide (x.id ∉ live w.slots)) = others D w := by
    rw [others_eq]
    refine List.filter_congr fun x hx => ?_
    rw [Bool.eq_iff_iff]
    simp only [decide_eq_true_eq]
    constructor
    · rintro h1 ⟨h2, h3⟩
      exact h1 (hI.track trivial x hx h2 h3)
    · intro h1 h2
      obtain ⟨a, y, hy, b, c⟩ := hI.sub _ h2
      have := hI.uniq.eq hy hx b
      subst this
      exact h1 ⟨c, a⟩
  refine ⟨?_, rfl, ⟨_, rfl, ?_⟩, ?_, e1⟩
  · rw [waiting]
    simp only
    rw [e1, others, List.filter_filter, List.filter_eq_nil_iff]
    intro x _
    simp only [Bool.and_eq_true, decide_eq_true_eq]
    tauto
  · have := hI.slots_perm.map w.tag
    rw [List.map_map] at this
    refine this.symm.trans ?_
    unfold waitingUids
    rw [waiting_eq]
    rw [List.filter_congr (q := fun x => decide (x.send = D ∧ x.id ∉ w.exec.toList))]
    · exact List.Perm.refl _
    · intro x hx
      rw [Bool.eq_iff_iff]
      simp only [decide_eq_true_eq]
      constructor
      · rintro ⟨a, b, -⟩; exact ⟨a, b⟩
      · rintro ⟨a, b⟩; exact ⟨a, b, hI.track trivial x hx a b⟩
  · conv_lhs => rw [others]
    simp only
    rw [e1, others, List.filter_filter]
    refine List.filter_congr fun x _ => ?_
    simp

/-- **C21**, flush (for histories in which flushed messages do not come straight back): everything waiting is emitted at once, exactly
once, with the timestamp of the flush; nothing is waiting afterwards; when the rest of the patch does nothing meanwhile,
every other message in the queue stays where it is -/
theorem flush_emits_partial {d0 : Nat} (h : Reach False D d0 w) {w' : W} {ts : Nat} {during : Nat → List DAct}
    (hd : EvOk False D w (.flush ts during)) (hw : step D w (.flush ts during) = .ok w') :
    waiting D w' = [] ∧ w'.gone = w.gone ∧
    (∃ L, w'.log = w.log ++ L ∧ (∀ e ∈ L, e.flushed = true ∧ e.ts = ts) ∧ (L.map (·.uid)).Perm (waitingUids D w)) ∧
    ((∀ i, during i = []) → others D w' = others D w ∧ w'.q = others D w) := by
  have hI := (reach_inv h)
  have hI' := (reach_inv (.next h hd hw))
  simp only [not_false_eq_true] at hI hI'
  simp only [step] at hw
  obtain ⟨h1, h2, h3, h4, ⟨L, h5, h6⟩, h7⟩ := hI.flush (loop := False) (fun _ => id) (by
      intro i a ha
      have := hd i a ha
      cases a with
      | other a =>
        refine ⟨this.1, fun p s hps => ?_⟩
        have := this.2 p s hps
        intro hm
        rw [Option.mem_toList] at hm
        exact this hm
      | back ts p => exact this) hw
  have hw0 : waiting D w' = [] := by
    rw [waiting_eq, List.filter_eq_nil_iff]
    intro x hx
    simp only [decide_eq_true_eq]
    rintro ⟨a, b⟩
    have := hI'.track trivial x hx a b
    rw [h4] at this
    cases this
  refine ⟨hw0, h3, ⟨L, h5, h6, ?_⟩, ?_⟩
  · -- the flush accepts no message
    have p1 := hI.perm
    have p2 := hI'.perm
    rw [← waiting_eq, hw0] at p2
    rw [← waiting_eq] at p1
    have hn : w'.acc = w.acc := by
      have key : ∀ (as : List DAct) (w w' : W), (∀ a ∈ as, ∀ ts p, a ≠ .back ts p) → dacts D w as = .ok w' → w'.acc = w.acc := by
        intro as
        induction as with
        | nil => intro w w' _ h; cases h; rfl
        | cons a as ih =>
          intro w w' ha h
          cases a with
          | other a =>
            have := ih _ _ (fun a' h' => ha a' (List.mem_cons_of_mem _ h')) h
            rw [this]
            cases a <;> rfl
          | back ts p => exact absurd rfl (ha _ List.mem_cons_self ts p)
      have nb : ∀ i, ∀ a ∈ during i, ∀ ts p, a ≠ .back ts p := by
        rintro i a ha ts p rfl
        exact hd i _ ha
      have key2 : ∀ (is : List Nat) (w w' : W), flushLoop D ts during w is = .ok w' → w'.acc = w.acc := by
        intro is
        induction is with
        | nil => intro w w' h; cases h; rfl
        | cons i is ih =>
          intro w w' h
          simp only [flushLoop, bind, Except.bind] at h
          split at h
          · cases h
          · rename_i w1 h1
            rw [ih _ _ h]
            unfold flushAt at h1
            split at h1
            · cases h1; rfl
            · simp only [bind, Except.bind] at h1
              split at h1
              · cases h1
              · rename_i w2 h2
                cases h1
                have := key _ _ _ (nb i) h2
                simp only [send] at this
                exact this
      simp only [flush, bind, Except.bind] at hw
      split at hw
      · cases hw
      · rename_i w1 hw1
        cases hw
        have := key2 _ _ _ hw1
        exact this
    rw [hn, h5, h3] at p2
    have := p2.symm.trans p1
    simp only [List.map_append, List.map_nil, List.append_nil, List.append_assoc] at this
    rw [List.perm_append_left_iff] at this
    have := List.perm_append_comm.trans this
    rw [List.perm_append_left_iff] at this
    exact this
  · intro hd0
    obtain ⟨-, e⟩ := h7 hd0
    have e : others D w' = others D w := by
      rw [others_eq, others_eq, h2]; exact e
    refine ⟨e, ?_⟩
    rw [← e, others]
    symm
    rw [List.filter_eq_self]
    intro x hx
    simp only [decide_eq_true_eq]
    intro hc
    have : x ∈ waiting D w' := by
      rw [waiting, List.mem_filter]; exact ⟨hx, by simpa using hc⟩
    rw [hw0] at this
    cases this

/-- a message that is dispatched and connected directly to a delay object has its timestamp changed while the copy is inserted;
the result is the same as that of an undisturbed insertion (when the due time does not wrap) -/
theorem direct_insert_same {x : Item} {q : List Item} (hu : UniqueIds (x :: q))
    (p due : Nat) (hp : p ∉ (x :: q).map (·.id)) (hd : x.ts ≤ due) :
    setTs x.id x.ts (absInsert ⟨p, due, 0, D⟩ (setTs x.id due (x :: q))) = absInsert ⟨p, due, 0, D⟩ (x :: q) := by
  have hq : ∀ y ∈ q, y.id ≠ x.id := fun y hy => ((List.pairwise_cons.mp hu.pw).1 y hy).symm
  have same : ∀ (t : Nat) (l : List Item), (∀ y ∈ l, y.id ≠ x.id) → setTs x.id t l = l := by
    intro t l hl
    unfold setTs
    conv_rhs => rw [← List.map_id l]
    refine List.map_congr_left fun y hy => ?_
    rw [if_neg (hl y hy)]; rfl
  have e1 : setTs x.id due (x :: q) = { x with ts := due } :: q := by
    have := same due q hq
    unfold setTs at this ⊢
    rw [List.map_cons, if_pos rfl, this]
  have px : p ≠ x.id := fun e => hp (by rw [e]; simp)
  rw [e1]
  have comm : ∀ l : List Item, (∀ y ∈ l, y.id ≠ x.id) → setTs x.id x.ts ({ x with ts := due } :: l) = x :: l := by
    intro l hl
    have := same x.ts l hl
    unfold setTs at this ⊢
    rw [List.map_cons, if_pos rfl, this]
  unfold absInsert
  simp only
  rw [if_neg (by simp), if_neg (Nat.not_lt.mpr hd)]
  cases hql : q with
  | nil =>
    rw [if_pos (by simp), if_pos (by simpa using hd)]
    exact comm [⟨p, due, 0, D⟩] (by simpa using px)
  | cons y ys =>
    rw [← hql]
    have hne : q ≠ [] := by rw [hql]; simp
    rw [List.getLast_cons hne, List.getLast_cons hne]
    split
    · exact comm (q ++ [⟨p, due, 0, D⟩]) (by
        intro z hz
        rcases List.mem_append.mp hz with hz | hz
        · exact hq z hz
        · rw [List.mem_singleton] at hz; subst hz; exact px)
    · obtain ⟨l, r, h1, h2⟩ := insMid_split ⟨p, due, 0, D⟩ q
      refine comm _ ?_
      intro z hz
      rw [h2] at hz
      rcases List.mem_append.mp hz with hz | hz
      · exact hq z (by rw [h1]; exact List.mem_append_left _ hz)
      · rcases List.mem_cons.mp hz with rfl | hz
        · exact px
        · exact hq z (by rw [h1]; exact List.mem_append_right _ hz)

/-! ### non-vacuity and findings -/

/-- object number 1, delay 10: two messages, one is dispatched at its time, the other cleared; a message of another object
(number 9) is untouched -/
def sampleHistory : List Ev :=
  [.msg 0 false 100, .msg 3 false 101, .other (.sched 12 9 102 7), .start, .setDelay 20, .finish, .clear]

theorem sampleHistory_reach : ∀ w, run 1 (init 10) sampleHistory = .ok w → Reach False 1 10 w := by
  have key : ∀ (es : List Ev) (w w' : W), Reach False 1 10 w →
      (∀ e ∈ es, match e with
        | .flush _ _ => False
        | .other a => a.sendOf ≠ 1 ∧ ∀ p s, a ≠ .cancel p s
        | .start | .finish => False
        | _ => True) → run 1 w es = .ok w' → Reach False 1 10 w' := by
    intro es
    induction es with
    | nil => intro w w' h _ hr; cases hr; exact h
    | cons e es ih =>
      intro w w' h he hr
      simp only [run, bind, Except.bind] at hr
      split at hr
      · cases hr
      · rename_i w1 h1
        refine ih w1 w' (.next h ?_ h1) (fun e' h' => he e' (List.mem_cons_of_mem _ h')) hr
        have := he e List.mem_cons_self
        cases e with
        | flush _ _ => exact absurd this id
        | other a => exact ⟨this.1, fun p s h => absurd h (this.2 p s)⟩
        | start => exact absurd this id
        | finish => exact absurd this id
        | msg _ _ _ => trivial
        | clear => trivial
        | setDelay _ => trivial
  intro w hw
  have r0 : Reach False 1 10 (init 10) := .init
  -- the three events before the dispatch
  obtain ⟨w3, h3⟩ : ∃ w3, run 1 (init 10) [.msg 0 false 100, .msg 3 false 101, .other (.sched 12 9 102 7)] = .ok w3 := ⟨_, rfl⟩
  have r3 := key _ _ _ r0 (by simp [Other.sendOf]) h3
  have e3 : w3.exec = none ∧ w3.q.head? = some ⟨100, 10, 0, 1⟩ := by
    cases h3; exact ⟨rfl, rfl⟩
  obtain ⟨w4, h4⟩ : ∃ w4, step 1 w3 .start = .ok w4 := by cases h3; exact ⟨_, rfl⟩
  have r4 : Reach False 1 10 w4 := .next (e := .start) r3 e3.1 h4
  obtain ⟨w5, h5⟩ : ∃ w5, step 1 w4 (.setDelay 20) = .ok w5 := ⟨_, rfl⟩
  have r5 : Reach False 1 10 w5 := .next (e := .setDelay 20) r4 trivial h5
  obtain ⟨w6, h6⟩ : ∃ w6, step 1 w5 .finish = .ok w6 := ⟨_, rfl⟩
  have r6 : Reach False 1 10 w6 := by
    refine .next (e := .finish) r5 ?_ h6
    cases h3; cases h4; cases h5
    exact ⟨_, rfl, rfl⟩
  obtain ⟨w7, h7⟩ : ∃ w7, step 1 w6 .clear = .ok w7 := ⟨_, rfl⟩
  have r7 : Reach False 1 10 w7 := .next (e := .clear) r6 trivial h7
  have : w = w7 := by
    cases h3; cases h4; cases h5; cases h6; cases h7
    cases hw
    rfl
  rw [this]
  exact r7

/-- the first message came out at time 10, the second was cleared, the third is still there -/
example : ((run 1 (init 10) sampleHistory).toOption.map fun w => (w.log, w.gone, w.q, w.n)) =
    some ([⟨0, 10, false⟩], [1], [⟨102, 12, 0, 9⟩], 2) := by decide +kernel

/-- the flush of F28 -/
def feedback : Ev := .flush 5 fun i => if i = 0 then [.back 5 101] else []

/-- **F28**: a flushed message that makes the patch send a new message to the same object at once leaves that new message
untracked: a later `clear` does not cancel it -/
theorem flush_feedback_escapes_clear :
    ∃ w, Reach True 1 10 w ∧ ∃ w', step 1 w .clear = .ok w' ∧ (waiting 1 w').map (·.ts) = [15] := by
  obtain ⟨w1, h1⟩ : ∃ w1, step 1 (init 10) (.msg 0 false 100) = .ok w1 := ⟨_, rfl⟩
  obtain ⟨w2, h2⟩ : ∃ w2, step 1 w1 feedback = .ok w2 := by
    cases h1; exact ⟨_, rfl⟩
  refine ⟨w2, .next (e := feedback) (.next (e := .msg 0 false 100) .init trivial h1) ?_ h2, _, rfl, ?_⟩
  · intro i a ha
    by_cases hi : i = 0
    · simp only [hi, if_true, List.mem_singleton] at ha
      subst ha; trivial
    · simp only [hi, if_false, List.not_mem_nil] at ha
  · cases h1
    cases h2
    decide +kernel

/-- the flush of F27 -/
def respond : Ev := .flush 0 fun _ => [.other (.sched 50 9 103 7)]

/-- **F27**: while a flushed message is being sent it sits in the queue with a changed timestamp; if it is the last one, a message that
the patch schedules in response is put at the end although others are due after it: the queue is no longer in order -/
theorem flush_breaks_queue_order :
    ∃ w, Reach False 1 200 w ∧ w.q.map (·.ts) = [10, 100, 200] ∧
      ∃ w', EvOk False 1 w respond ∧ step 1 w respond = .ok w' ∧ w'.q.map (·.ts) = [10, 100, 50] := by
  obtain ⟨w1, h1⟩ : ∃ w1, step 1 (init 200) (.other (.sched 10 9 100 7)) = .ok w1 := ⟨_, rfl⟩
  obtain ⟨w1', h1'⟩ : ∃ w1', step 1 w1 (.other (.sched 100 9 101 7)) = .ok w1' := ⟨_, rfl⟩
  obtain ⟨w2, h2⟩ : ∃ w2, step 1 w1' (.msg 0 false 102) = .ok w2 := by
    cases h1; cases h1'; exact ⟨_, rfl⟩
  obtain ⟨w3, h3⟩ : ∃ w3, step 1 w2 respond = .ok w3 := by
    cases h1; cases h1'; cases h2; exact ⟨_, rfl⟩
  have r1 : Reach False 1 200 w1 := .next (e := .other (.sched 10 9 100 7)) .init ⟨by decide, by simp⟩ h1
  have r1' : Reach False 1 200 w1' := .next (e := .other (.sched 100 9 101 7)) r1 ⟨by decide, by simp⟩ h1'
  refine ⟨w2, .next (e := .msg 0 false 102) r1' trivial h2, ?_, w3, ?_, h3, ?_⟩
  · cases h1; cases h1'; cases h2; decide +kernel
  · intro i a ha
    rw [List.mem_singleton] at ha
    subst ha
    exact ⟨by decide, by simp⟩
  · cases h1; cases h1'; cases h2; cases h3; decide +kernel

/-- the ninth message waiting at the same time is refused -/
theorem delay_ninth_refused :
    (run 1 (init 10) (List.replicate 9 (.msg 0 false 100))).toOption.isSome = false ∧
    (run 1 (init 10) (List.replicate 8 (.msg 0 false 100))).toOption.isSome = true := by decide +kernel

end Verif.Delay
