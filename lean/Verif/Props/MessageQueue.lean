import Verif.MessageQueueProofs
/-!
# Properties C04, C05, C06, C07: the message queue
-/
namespace Verif.MQ

/-! ## C05: the linked list implements a sequence

The specification is a plain list of pending messages. -/

/-- specification of one call on the list of pending messages (queue order) -/
def specStep (xs : List Item) : Op → Out × List Item
  | .add x => (.unit, xs ++ [x])
  | .addTs x => (.unit, absInsert x xs)
  | .pop => (.popped xs.head?, xs.tail)
  | .remove m s => let r := absRemove m s xs; (.removed r.1, r.2)
  | .clear => (.unit, [])

def specRun (xs : List Item) : List Op → List Out × List Item
  | [] => ([], xs)
  | op :: ops => let r := specStep xs op; let rs := specRun r.2 ops; (r.1 :: rs.1, rs.2)

theorem step_rep {q as ps xs} (r : Rep q as ps xs) (op : Op) :
    ∃ q' as' ps', step q op = some ((specStep xs op).1, q') ∧ Rep q' as' ps' (specStep xs op).2 := by
  cases op with
  | add x =>
    obtain ⟨as', ps', h⟩ := addMessage_rep r x
    exact ⟨_, as', ps', rfl, h⟩
  | addTs x =>
    obtain ⟨q', as', ps', h1, h2⟩ := addByTimestamp_rep r x
    exact ⟨q', as', ps', by simp [step, h1, specStep], h2⟩
  | pop =>
    obtain ⟨as', ps', h⟩ := pop_rep r
    exact ⟨_, as', ps', by simp [step, r.peek, specStep], h⟩
  | remove m s =>
    obtain ⟨q', as', ps', h1, h2⟩ := removeMessage_rep r m s
    exact ⟨q', as', ps', by simp [step, h1, specStep], h2⟩
  | clear =>
    have hl := r.length_le
    rw [List.length_append, r.len] at hl
    obtain ⟨q', ps', h1, h2⟩ := clear_rep r (q.fresh + 1) (by omega)
    exact ⟨q', [], ps', by simp [step, h1, specStep], h2⟩

theorem run_rep {q as ps xs} (r : Rep q as ps xs) (ops : List Op) :
    ∃ q' as' ps', run q ops = some ((specRun xs ops).1, q') ∧ Rep q' as' ps' (specRun xs ops).2 := by
  induction ops generalizing q as ps xs with
  | nil => exact ⟨q, as, ps, rfl, r⟩
  | cons op ops ih =>
    obtain ⟨q1, as1, ps1, h1, h2⟩ := step_rep r op
    obtain ⟨q2, as2, ps2, h3, h4⟩ := ih h2
    exact ⟨q2, as2, ps2, by simp [run, h1, h3, specRun], h4⟩

/-- **C05** For every history of calls: no call follows a `NULL` pointer, every call returns what the
sequence specification returns, and afterwards the linked list, read forwards, is exactly the
specified sequence. -/
theorem queue_refines_sequence (h : Heap) (ops : List Op) :
    ∃ q, run (init h) ops = some ((specRun [] ops).1, q) ∧ toList q = some (specRun [] ops).2 := by
  obtain ⟨q, as, ps, h1, h2⟩ := run_rep (rep_init h) ops
  exact ⟨q, h1, h2.toList⟩

/-- **C05** In every reachable state the backward traversal is the reverse of the forward one and
`mq_size` is its length. -/
theorem queue_traversals_agree (h : Heap) (ops : List Op) (os : List Out) (q : Q)
    (hr : run (init h) ops = some (os, q)) :
    ∃ xs, toList q = some xs ∧ toListBack q = some xs.reverse ∧ size q = some xs.length := by
  obtain ⟨q', as, ps, h1, h2⟩ := run_rep (rep_init h) ops
  rw [hr] at h1
  cases h1
  exact ⟨_, h2.toList, h2.toListBack, h2.size⟩

/-- **C05** In every reachable state each node ever allocated is in exactly one place: either in the
queue or in the free pool, and only once (the two node lists together are a permutation of all
allocated addresses). -/
theorem queue_nodes_partition (h : Heap) (ops : List Op) (os : List Out) (q : Q)
    (hr : run (init h) ops = some (os, q)) :
    ∃ ns ps, queueNodes q = some ns ∧ poolNodes q = some ps ∧ (ns ++ ps).Perm (List.range q.fresh) := by
  obtain ⟨q', as, ps, h1, h2⟩ := run_rep (rep_init h) ops
  rw [hr] at h1
  cases h1
  exact ⟨as, ps, h2.queueNodes, h2.poolNodes, h2.perm⟩

/-- **C05** `mq_free` passes every node ever allocated to `hv_free` exactly once. -/
theorem queue_free_frees_all (h : Heap) (ops : List Op) (os : List Out) (q : Q)
    (hr : run (init h) ops = some (os, q)) :
    ∃ fs, mqFree q = some fs ∧ fs.Perm (List.range q.fresh) := by
  obtain ⟨q', as, ps, h1, h2⟩ := run_rep (rep_init h) ops
  rw [hr] at h1
  cases h1
  have hl := h2.length_le
  rw [List.length_append, h2.len] at hl
  obtain ⟨q2, ps2, h3, h4⟩ := clear_rep h2 (q.fresh + 1) (by omega)
  have hf : q2.fresh = q.fresh := by
    have : ∀ fuel (q q2 : Q), clear fuel q = some q2 → q2.fresh = q.fresh := by
      intro fuel
      induction fuel with
      | zero => intro q q2 h; simp [clear] at h
      | succ fuel ih =>
        intro q q2 h
        unfold clear at h
        split at h
        · cases h; rfl
        · rw [ih _ _ h]
          unfold pop
          split
          · rfl
          · simp only
            split <;> rfl
    exact this _ _ _ h3
  refine ⟨ps2, by simp [mqFree, h3, h4.poolNodes], ?_⟩
  have := h4.perm
  simpa [hf] using this

/-! ## C04: order of delivery

The specification keeps the pending messages in the order of arrival; the next message to deliver is
the first-arrived one among those with the smallest timestamp. -/

/-- the message that has to be delivered next -/
def next (L : List Item) : Option Item := L.find? fun x => L.all fun y => decide (x.ts ≤ y.ts)

/-- specification of one call; the state is the list of pending messages in arrival order -/
def arrStep (L : List Item) : Op → Out × List Item
  | .add x | .addTs x => (.unit, L ++ [x])
  | .pop => (.popped (next L), match next L with | none => L | some x => L.erase x)
  | .remove m s =>
    if ∃ x ∈ L, x.id = m ∧ (s = none ∨ s = some x.send)
    then (.removed true, L.filter fun x => x.id ≠ m) else (.removed false, L)
  | .clear => (.unit, [])

def arrRun (L : List Item) : List Op → List Out × List Item
  | [] => ([], L)
  | op :: ops => let r := arrStep L op; let rs := arrRun r.2 ops; (r.1 :: rs.1, rs.2)

/-- Histories in which insertion is by timestamp, and a message that is added has an address that no
pending message has (this is what the message pool guarantees, C11). -/
def Valid (L : List Item) : List Op → Prop
  | [] => True
  | op :: ops => (match op with
      | .add _ => False
      | .addTs x => ∀ y ∈ L, y.id ≠ x.id
      | _ => True) ∧ Valid (arrStep L op).2 ops

/-- `xs` is the stable sort of `L` by timestamp. -/
structure StableSort (L xs : List Item) : Prop where
  sorted : xs.Pairwise (fun a b => a.ts ≤ b.ts)
  stable : ∀ t, xs.filter (fun x => decide (x.ts = t)) = L.filter (fun x => decide (x.ts = t))

theorem StableSort.mem {L xs} (h : StableSort L xs) (x : Item) : x ∈ xs ↔ x ∈ L := by
  have : x ∈ xs.filter (fun y => decide (y.ts = x.ts)) ↔ x ∈ L.filter (fun y => decide (y.ts = x.ts)) := by
    rw [h.stable]
  simpa using this

theorem insMid_eq (x : Item) : ∀ xs : List Item, xs.Pairwise (fun a b => a.ts ≤ b.ts) →
    insMid x xs = xs.filter (fun y => decide (y.ts ≤ x.ts)) ++ x :: xs.filter (fun y => decide (x.ts < y.ts)) := by
  intro xs hs
  induction xs with
  | nil => rfl
  | cons y ys ih =>
    have hs' := List.pairwise_cons.mp hs
    by_cases hc : x.ts < y.ts
    · have h1 : ys.filter (fun y => decide (y.ts ≤ x.ts)) = [] := by
        rw [List.filter_eq_nil_iff]
        intro z hz; have := hs'.1 z hz; simp; omega
      have h2 : ys.filter (fun y => decide (x.ts < y.ts)) = ys := by
        rw [List.filter_eq_self]
        intro z hz; have := hs'.1 z hz; simp; omega
      simp [insMid, hc, h1, h2, List.filter_cons]
    · have hc' : y.ts ≤ x.ts := by omega
      simp [insMid, hc, hc', ih hs'.2, List.filter_cons]

theorem absInsert_eq (x : Item) (xs : List Item) (hs : xs.Pairwise (fun a b => a.ts ≤ b.ts)) :
    absInsert x xs = xs.filter (fun y => decide (y.ts ≤ x.ts)) ++ x :: xs.filter (fun y => decide (x.ts < y.ts)) := by
  cases xs with
  | nil => rfl
  | cons y ys =>
    rw [← insMid_eq x _ hs]
    unfold absInsert
    by_cases hc : x.ts < y.ts
    · simp [hc, insMid]
    · simp only [hc, if_false]
      by_cases hl : x.ts ≥ ((y :: ys).getLast (by simp)).ts
      · rw [if_pos hl, insMid_eq x _ hs]
        have hall : ∀ z ∈ y :: ys, z.ts ≤ x.ts := by
          intro z hz
          have hw := List.dropLast_concat_getLast (l := y :: ys) (by simp)
          rw [← hw] at hs hz
          have h3 := (List.pairwise_append.mp hs).2.2
          rcases List.mem_append.mp hz with h | h
          · have := h3 z h ((y :: ys).getLast (by simp)) (by simp); simp only [ge_iff_le] at hl; omega
          · simp at h; subst h; exact hl
        have h1 : (y :: ys).filter (fun y => decide (y.ts ≤ x.ts)) = y :: ys := by
          rw [List.filter_eq_self]; intro z hz; simpa using hall z hz
        have h2 : (y :: ys).filter (fun y => decide (x.ts < y.ts)) = [] := by
          rw [List.filter_eq_nil_iff]; intro z hz; have := hall z hz; simpa using this
        rw [h1, h2]
      · rw [if_neg hl]; simp [insMid, hc]

theorem StableSort.insert {L xs} (h : StableSort L xs) (x : Item) :
    StableSort (L ++ [x]) (absInsert x xs) := by
  rw [absInsert_eq x xs h.sorted]
  refine ⟨?_, fun t => ?_⟩
  · rw [List.pairwise_append]
    refine ⟨h.sorted.filter _, List.pairwise_cons.mpr ⟨?_, h.sorted.filter _⟩, ?_⟩
    · intro a ha; simp at ha; omega
    · intro a ha b hb
      simp at ha hb
      rcases hb with rfl | hb
      · exact ha.2
      · omega
  · simp only [List.filter_append, List.filter_cons, List.filter_nil, List.filter_filter]
    rw [← h.stable t]
    by_cases ht : x.ts = t
    · subst ht
      have h1 : (xs.filter fun a => decide (a.ts = x.ts) && decide (a.ts ≤ x.ts)) =
          xs.filter fun a => decide (a.ts = x.ts) := by
        apply List.filter_congr; intro a _; by_cases h : a.ts = x.ts <;> simp [h]
      have h2 : (xs.filter fun a => decide (a.ts = x.ts) && decide (x.ts < a.ts)) = [] := by
        rw [List.filter_eq_nil_iff]; intro a _; simp; omega
      simp [h1, h2]
    · simp only [ht, decide_false, Bool.false_eq_true, if_false, List.append_nil]
      by_cases hlt : t ≤ x.ts
      · have h1 : (xs.filter fun a => decide (a.ts = t) && decide (a.ts ≤ x.ts)) =
            xs.filter fun a => decide (a.ts = t) := by
          apply List.filter_congr; intro a _; by_cases h : a.ts = t <;> simp [h]; omega
        have h2 : (xs.filter fun a => decide (a.ts = t) && decide (x.ts < a.ts)) = [] := by
          rw [List.filter_eq_nil_iff]; intro a _; simp; omega
        simp [h1, h2]
      · have h1 : (xs.filter fun a => decide (a.ts = t) && decide (x.ts < a.ts)) =
            xs.filter fun a => decide (a.ts = t) := by
          apply List.filter_congr; intro a _; by_cases h : a.ts = t <;> simp [h]; omega
        have h2 : (xs.filter fun a => decide (a.ts = t) && decide (a.ts ≤ x.ts)) = [] := by
          rw [List.filter_eq_nil_iff]; intro a _; simp; omega
        simp [h1, h2]

theorem StableSort.next {L x xs} (h : StableSort L (x :: xs)) : next L = some x := by
  unfold MQ.next
  rw [← List.head?_filter]
  have : L.filter (fun x => L.all fun y => decide (x.ts ≤ y.ts)) = L.filter (fun y => decide (y.ts = x.ts)) := by
    apply List.filter_congr
    intro y hy
    have hy' := (h.mem y).mpr hy
    have hs := List.pairwise_cons.mp h.sorted
    rw [Bool.eq_iff_iff]
    simp only [List.all_eq_true, decide_eq_true_eq]
    constructor
    · intro hall
      have h1 := hall x ((h.mem x).mp (by simp))
      rcases List.mem_cons.mp hy' with rfl | hy'
      · rfl
      · have := hs.1 y hy'; omega
    · intro he z hz
      have hz' := (h.mem z).mpr hz
      rcases List.mem_cons.mp hz' with rfl | hz'
      · omega
      · have := hs.1 z hz'; omega
  rw [this, ← h.stable x.ts]
  simp

theorem filter_erase {p : Item → Bool} (x : Item) : ∀ (l : List Item),
    (l.erase x).filter p = if p x then (l.filter p).erase x else l.filter p := by
  intro l
  induction l with
  | nil => simp
  | cons y ys ih =>
    by_cases hxy : y = x
    · subst hxy
      by_cases hp : p y <;> simp [hp]
    · rw [List.erase_cons_tail (by simpa using hxy)]
      by_cases hp : p x
      · by_cases hq : p y
        · simp only [List.filter_cons, hq, if_true, ih, hp]
          rw [List.erase_cons_tail (by simpa using hxy)]
        · simp [hq, ih, hp]
      · by_cases hq : p y <;> simp [hq, ih, hp]

theorem StableSort.pop {L x xs} (h : StableSort L (x :: xs)) : StableSort (L.erase x) xs := by
  refine ⟨(List.pairwise_cons.mp h.sorted).2, fun t => ?_⟩
  rw [filter_erase, ← h.stable t]
  by_cases ht : x.ts = t
  · simp [ht]
  · simp [ht]

theorem absRemove_eq (m : Nat) (s : Option Nat) (xs : List Item)
    (hu : xs.Pairwise (fun a b => a.id ≠ b.id)) :
    absRemove m s xs = if ∃ x ∈ xs, x.id = m ∧ (s = none ∨ s = some x.send)
      then (true, xs.filter fun x => x.id ≠ m) else (false, xs) := by
  induction xs with
  | nil => simp [absRemove]
  | cons y ys ih =>
    have hu' := List.pairwise_cons.mp hu
    unfold absRemove
    by_cases hy : y.id = m
    · rw [if_pos hy]
      have hne : ∀ z ∈ ys, z.id ≠ m := fun z hz => by rw [← hy]; exact (hu'.1 z hz).symm
      have hfs : ys.filter (fun x => decide (x.id ≠ m)) = ys := by
        rw [List.filter_eq_self]; intro z hz; simpa using hne z hz
      by_cases hs : s = none ∨ some y.send = s
      · rw [if_pos hs, if_pos ⟨y, by simp, hy, by rcases hs with h | h; exact .inl h; exact .inr h.symm⟩]
        simp only [List.filter_cons, hy, ne_eq, not_true_eq_false, decide_false, Bool.false_eq_true,
          if_false]
        rw [Prod.mk.injEq]
        exact ⟨rfl, hfs.symm⟩
      · rw [if_neg hs, if_neg]
        rintro ⟨x, hx, hxm, hxs⟩
        rcases List.mem_cons.mp hx with rfl | hx
        · apply hs; rcases hxs with h | h; exact .inl h; exact .inr h.symm
        · exact hne x hx hxm
    · rw [if_neg hy, ih hu'.2]
      by_cases hex : ∃ x ∈ ys, x.id = m ∧ (s = none ∨ s = some x.send)
      · rw [if_pos hex, if_pos]
        · simp [hy]
        · obtain ⟨x, hx, h⟩ := hex; exact ⟨x, by simp [hx], h⟩
      · rw [if_neg hex, if_neg]
        rintro ⟨x, hx, hxm, hxs⟩
        rcases List.mem_cons.mp hx with rfl | hx
        · exact hy hxm
        · exact hex ⟨x, hx, hxm, hxs⟩

/-- addresses of the pending messages are pairwise different -/
def Uniq (xs : List Item) : Prop := xs.Pairwise (fun a b => a.id ≠ b.id)

theorem specStep_arr {L xs} (h : StableSort L xs) (hu : Uniq xs) (op : Op)
    (hv : match op with | .add _ => False | .addTs x => ∀ y ∈ L, y.id ≠ x.id | _ => True) :
    (specStep xs op).1 = (arrStep L op).1 ∧ StableSort (arrStep L op).2 (specStep xs op).2 ∧
      Uniq (specStep xs op).2 := by
  cases op with
  | add x => exact hv.elim
  | addTs x =>
    refine ⟨rfl, h.insert x, ?_⟩
    simp only [specStep]
    rw [absInsert_eq x xs h.sorted]
    have hv' : ∀ y ∈ xs, y.id ≠ x.id := fun y hy => hv y ((h.mem y).mp hy)
    unfold Uniq
    have hp : (xs.filter (fun y => decide (y.ts ≤ x.ts)) ++ x :: xs.filter (fun y => decide (x.ts < y.ts))).Perm
        (x :: xs) := by
      refine List.perm_middle.trans (List.Perm.cons x ?_)
      have := List.filter_append_perm (fun y : Item => decide (y.ts ≤ x.ts)) xs
      refine List.Perm.trans (List.Perm.append_left _ ?_) this
      rw [List.filter_congr (q := fun y => !decide (y.ts ≤ x.ts))]
      intro a _
      rw [Bool.eq_iff_iff]; simp
    rw [hp.pairwise_iff (fun h => Ne.symm h)]
    exact List.pairwise_cons.mpr ⟨fun y hy => (hv' y hy).symm, hu⟩
  | pop =>
    cases xs with
    | nil =>
      have hL : L = [] := by
        rw [List.eq_nil_iff_forall_not_mem]; intro x hx; simpa using (h.mem x).mpr hx
      subst hL
      exact ⟨rfl, h, hu⟩
    | cons x xs =>
      simp only [specStep, arrStep, h.next]
      exact ⟨rfl, h.pop, (List.pairwise_cons.mp hu).2⟩
  | remove m s =>
    simp only [specStep, arrStep]
    rw [absRemove_eq m s xs hu]
    have hiff : (∃ x ∈ xs, x.id = m ∧ (s = none ∨ s = some x.send)) ↔
        ∃ x ∈ L, x.id = m ∧ (s = none ∨ s = some x.send) := by
      constructor <;> rintro ⟨x, hx, hr⟩
      · exact ⟨x, (h.mem x).mp hx, hr⟩
      · exact ⟨x, (h.mem x).mpr hx, hr⟩
    by_cases hc : ∃ x ∈ xs, x.id = m ∧ (s = none ∨ s = some x.send)
    · rw [if_pos hc, if_pos (hiff.mp hc)]
      refine ⟨rfl, ⟨h.sorted.filter _, fun t => ?_⟩, hu.filter _⟩
      simp only [List.filter_filter]
      have := congrArg (List.filter fun x : Item => decide (x.id ≠ m)) (h.stable t)
      simp only [List.filter_filter] at this
      have hcm : (fun a : Item => decide (a.ts = t) && decide (a.id ≠ m)) =
          (fun a : Item => decide (a.id ≠ m) && decide (a.ts = t)) :=
        funext fun a => Bool.and_comm _ _
      rw [hcm, this]
    · rw [if_neg hc, if_neg (fun hh => hc (hiff.mpr hh))]
      exact ⟨rfl, h, hu⟩
  | clear =>
    exact ⟨rfl, ⟨List.Pairwise.nil, fun _ => rfl⟩, List.Pairwise.nil⟩

theorem specRun_arr {L xs} (h : StableSort L xs) (hu : Uniq xs) (ops : List Op) (hv : Valid L ops) :
    (specRun xs ops).1 = (arrRun L ops).1 ∧ StableSort (arrRun L ops).2 (specRun xs ops).2 ∧
      Uniq (specRun xs ops).2 := by
  induction ops generalizing L xs with
  | nil => exact ⟨rfl, h, hu⟩
  | cons op ops ih =>
    obtain ⟨h1, h2, h3⟩ := specStep_arr h hu op hv.1
    obtain ⟨h4, h5, h6⟩ := ih h2 h3 hv.2
    exact ⟨by simp [specRun, arrRun, h1, h4], h5, h6⟩

theorem stableSort_nil : StableSort [] [] := ⟨List.Pairwise.nil, fun _ => rfl⟩

/-- **C04** For every history of timestamped insertions, pops and cancellations, run on the linked
list: every `pop` delivers the pending message with the smallest timestamp, the first-arrived one
among equals (and `NULL` only when nothing is pending); each message is delivered once. -/
theorem queue_pops_earliest_first (h : Heap) (ops : List Op) (hv : Valid [] ops) :
    ∃ q, run (init h) ops = some ((arrRun [] ops).1, q) := by
  obtain ⟨q, h1, _⟩ := queue_refines_sequence h ops
  obtain ⟨h2, _, _⟩ := specRun_arr stableSort_nil List.Pairwise.nil ops hv
  exact ⟨q, by rw [h1, h2]⟩

/-- **C04** In every reachable state the queue, from head to tail, holds exactly the pending messages,
sorted by timestamp, and messages with equal timestamps in the order of their insertion. -/
theorem queue_sorted_stable (h : Heap) (ops : List Op) (hv : Valid [] ops) (os : List Out) (q : Q)
    (hr : run (init h) ops = some (os, q)) :
    ∃ xs, toList q = some xs ∧ xs.Pairwise (fun a b => a.ts ≤ b.ts) ∧
      ∀ t, xs.filter (fun x => decide (x.ts = t)) =
        (arrRun [] ops).2.filter (fun x => decide (x.ts = t)) := by
  obtain ⟨q', h1, h2⟩ := queue_refines_sequence h ops
  rw [hr] at h1
  cases h1
  obtain ⟨_, h3, _⟩ := specRun_arr stableSort_nil List.Pairwise.nil ops hv
  exact ⟨_, h2, h3.sorted, h3.stable⟩

/-- **C06** In every reachable state, cancelling message `m` with target `s` (or any target, if `s` is
`NULL`) removes exactly that message and reports `true`, if it is pending with that target; all other
messages keep their order.  Otherwise it reports `false` and changes nothing. -/
theorem cancel_removes_exactly (h : Heap) (ops : List Op) (hv : Valid [] ops) (os : List Out) (q : Q)
    (hr : run (init h) ops = some (os, q)) (m : Nat) (s : Option Nat) :
    ∃ xs b q', toList q = some xs ∧ removeMessage q m s = some (b, q') ∧
      (b = true ↔ ∃ x ∈ xs, x.id = m ∧ (s = none ∨ s = some x.send)) ∧
      toList q' = some (if b then xs.filter (fun x => x.id ≠ m) else xs) ∧
      (xs.filter (fun x => decide (x.id = m))).length ≤ 1 := by
  obtain ⟨q0, as, ps, h1, h2⟩ := run_rep (rep_init h) ops
  rw [hr] at h1
  cases h1
  obtain ⟨_, _, hu⟩ := specRun_arr stableSort_nil List.Pairwise.nil ops hv
  obtain ⟨q', as', ps', h3, h4⟩ := removeMessage_rep h2 m s
  refine ⟨_, _, q', h2.toList, h3, ?_, ?_, ?_⟩
  · rw [absRemove_eq m s _ hu]
    split
    · rename_i hc; exact ⟨fun _ => hc, fun _ => rfl⟩
    · rename_i hc; exact ⟨fun h => by simp at h, fun h => absurd h hc⟩
  · rw [h4.toList, absRemove_eq m s _ hu]; split <;> simp_all
  · generalize (specRun [] ops).2 = xs at hu
    clear * - hu
    induction xs with
    | nil => simp
    | cons y ys ih =>
      have hu' := List.pairwise_cons.mp hu
      by_cases hy : y.id = m
      · have : ys.filter (fun x => decide (x.id = m)) = [] := by
          rw [List.filter_eq_nil_iff]; intro z hz; have := hu'.1 z hz; simp; omega
        simp [hy, this]
      · simpa [hy] using ih hu'.2

/-- Non-vacuity for C04-C06: a history with ties, insertion before head, in the middle and at the
tail, cancellation of a middle node, reuse of pooled nodes. -/
def demoOps : List Op :=
  [.addTs ⟨1, 5, 0, 7⟩, .addTs ⟨2, 3, 1, 7⟩, .addTs ⟨3, 9, 0, 8⟩, .addTs ⟨4, 5, 0, 8⟩, .addTs ⟨5, 5, 2, 9⟩,
   .remove 4 (some 7), .remove 4 (some 8), .pop, .addTs ⟨4, 1, 0, 7⟩, .pop, .pop]

example : Valid [] demoOps := by
  unfold demoOps
  simp [Valid, arrStep, next]

example : (arrRun [] demoOps).1 =
    [.unit, .unit, .unit, .unit, .unit, .removed false, .removed true, .popped (some ⟨2, 3, 1, 7⟩),
     .unit, .popped (some ⟨4, 1, 0, 7⟩), .popped (some ⟨1, 5, 0, 7⟩)] := by decide

example : (run (init fun _ => ⟨none, none, none⟩) demoOps).map (·.1) = some (arrRun [] demoOps).1 := by
  decide

/-! ## C07: `mq_clearAfter` -/

/-- **C07, partial**: in every reachable state with timestamped insertions, `mq_clearAfter(t)`
terminates without following a `NULL` pointer, and
* the queue read backwards from the tail is exactly the earlier messages;
* if no message is at or after `t` the queue is unchanged;
* if every message is at or after `t` the queue is empty and well formed.
Missing: the forward links when some but not all messages are dropped; see
`clearAfter_breaks_queue`. -/
theorem clearAfter_partial (h : Heap) (ops : List Op) (hv : Valid [] ops) (os : List Out) (q : Q)
    (hr : run (init h) ops = some (os, q)) (t : Nat) :
    ∃ xs q', toList q = some xs ∧ clearAfter q t = some q' ∧
      toListBack q' = some (xs.filter (fun x => x.ts < t)).reverse ∧
      ((∀ x ∈ xs, x.ts < t) → q' = q) ∧
      ((∀ x ∈ xs, t ≤ x.ts) → toList q' = some [] ∧ ∀ ops', ∃ q'',
        run q' ops' = some ((specRun [] ops').1, q'') ∧ toList q'' = some (specRun [] ops').2) := by
  obtain ⟨q0, as, ps, h1, h2⟩ := run_rep (rep_init h) ops
  rw [hr] at h1
  cases h1
  obtain ⟨_, hst, _⟩ := specRun_arr stableSort_nil List.Pairwise.nil ops hv
  generalize (specRun [] ops).2 = xs at h2 hst
  have hl := h2.length_le
  rw [List.length_append, h2.len] at hl
  obtain ⟨q', as', ps', h3, h4, h5, h6⟩ := clearAfterLoop_li (t := t) (q.fresh + 1) h2.li (by omega)
  have hkeep : keep t xs = xs.filter (fun x => x.ts < t) := by
    have hs := hst.sorted
    clear * - hs
    generalize hn : xs.length = n
    induction n generalizing xs with
    | zero => rw [List.length_eq_zero_iff.mp hn]; rfl
    | succ n ih =>
      obtain ⟨xs, x, rfl⟩ : ∃ l x, xs = l ++ [x] := by
        rcases List.eq_nil_or_concat xs with rfl | ⟨l, x, rfl⟩
        · simp at hn
        · exact ⟨l, x, by simp⟩
      have hs' := List.pairwise_append.mp hs
      rw [keep_concat, List.filter_append]
      by_cases hc : t ≤ x.ts
      · rw [if_pos hc, ih xs hs'.1 (by simpa using hn)]; simp [hc]
      · rw [if_neg hc]
        have : xs.filter (fun x => decide (x.ts < t)) = xs := by
          rw [List.filter_eq_self]; intro y hy; have := hs'.2.2 y hy x (by simp); simp; omega
        rw [this]; simp [Nat.lt_of_not_le hc]
  have htail : ∀ (xs' : List Item) as', LI q' as' ps' xs' → (q'.tail = none ↔ xs' = []) := by
    intro xs' as' hli
    rw [hli.tail, List.getLast?_eq_none_iff]
    have := congrArg List.length hli.items
    simp at this
    constructor
    · intro h; subst h; exact List.eq_nil_of_length_eq_zero this.symm
    · intro h; subst h; exact List.eq_nil_of_length_eq_zero this
  refine ⟨xs, if q'.tail = none then { q' with head := none } else q', h2.toList, ?_, ?_, ?_, ?_⟩
  · simp only [clearAfter, h3, Option.bind_eq_bind, Option.bind_some]
    split <;> rfl
  · have : toListBack (if q'.tail = none then { q' with head := none } else q') = toListBack q' := by
      split <;> rfl
    rw [this, h4.toListBack, hkeep]
  · intro hall
    have hk : keep t xs = xs := by
      rw [hkeep, List.filter_eq_self]; intro x hx; simpa using hall x hx
    have := h6 hk
    subst this
    split
    · rename_i htn
      have := (htail _ _ h4).mp htn
      rw [hk] at this
      subst this
      have h0 : as = [] := by have := h2.len; simpa using this
      subst h0
      have hh : q'.head = none := h2.head
      cases q'
      simp only at hh
      simp [hh]
    · rfl
  · intro hall
    have hk : keep t xs = [] := by
      rw [hkeep, List.filter_eq_nil_iff]; intro x hx; have := hall x hx; simp; omega
    rw [hk] at h4
    have htn := (htail _ _ h4).mpr rfl
    have has : as' = [] := by
      have := congrArg List.length h4.items
      simpa using this
    subst has
    rw [if_pos htn]
    have hrep := h4.rep_nil
    refine ⟨hrep.toList, fun ops' => ?_⟩
    obtain ⟨q'', as2, ps2, h7, h8⟩ := run_rep hrep ops'
    exact ⟨q'', h7, h8.toList⟩

/-- **C07 is false of the code (finding F3)**: with messages at times 1 and 5, `mq_clearAfter(3)`
leaves the remaining node linked to the node just returned to the pool.  The queue then claims two
messages, its second message cannot be read, and after popping the only message,
`mq_hasMessageBefore` (called by `process`) dereferences a `NULL` message. -/
theorem clearAfter_breaks_queue :
    let q := (run (init fun _ => ⟨none, none, none⟩) [.addTs ⟨1, 1, 0, 0⟩, .addTs ⟨2, 5, 0, 0⟩]).map (·.2)
    let q' := q.bind (clearAfter · 3)
    q'.isSome ∧ q'.bind size = some 2 ∧ q'.bind toList = none ∧
      (q'.map pop).bind (hasMessageBefore · 100) = none := by
  decide

end Verif.MQ
