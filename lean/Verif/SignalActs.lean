import Verif.SignalTree
import Verif.Props.SignalBuffers
/-!
Proofs for `Verif.SignalTree`: a run of the compiler over nested graphs is a sequence of two kinds of steps, objects and shared
buffers; here such a sequence is proved to compile to a program that computes the signals.
-/
namespace Verif.Signal

variable {α : Type}

/-- a step: an object, or outlet `d` gets the buffer of outlet `s` and has `n` readers -/
inductive Act
  | atom (o : Nat)
  | link (s d : Nat × Nat) (n : Nat)
  deriving DecidableEq

/-- the outlets whose buffers a step uses -/
def Act.reads (ob : Nat → Obj) : Act → List (Nat × Nat)
  | .atom o => readsOf (ob o).inlets
  | .link s _ _ => [s]

/-- the outlets that get a buffer -/
def Act.makes (ob : Nat → Obj) : Act → Nat × Nat → Prop
  | .atom o, pk => pk.1 = o ∧ ∃ out, (ob o).outlets[pk.2]? = some out ∧ out.ty ≠ none ∧ out.preset = .zero
  | .link _ d _, pk => pk = d

/-- the outlets that belong to a step -/
def Act.touches : Act → Nat × Nat → Prop
  | .atom o, pk => pk.1 = o
  | .link _ d _, pk => pk = d

theorem Act.touches_of_makes {ob : Nat → Obj} {a : Act} {pk : Nat × Nat} (h : a.makes ob pk) : a.touches pk := by
  cases a with
  | atom o => exact h.1
  | link s d n => exact h

/-- the objects among the steps -/
def atoms : List Act → List Nat
  | [] => []
  | .atom o :: as => o :: atoms as
  | .link _ _ _ :: as => atoms as

theorem atoms_append (as bs : List Act) : atoms (as ++ bs) = atoms as ++ atoms bs := by
  induction as with
  | nil => rfl
  | cons a as ih => cases a <;> simp [atoms, ih]

theorem mem_atoms {as : List Act} {o : Nat} : o ∈ atoms as ↔ Act.atom o ∈ as := by
  induction as with
  | nil => simp [atoms]
  | cons a as ih => cases a <;> simp [atoms, ih]

/-- a step on the pools -/
def runAct (T : Tree) (st : St) : Act → Except Err (St × List Step)
  | .atom o => T.assignAtom st o
  | .link s d n =>
    match share st s d n with
    | .error e => .error e
    | .ok st => .ok (st, [])

/-- steps one after the other -/
def runActs (T : Tree) : St → List Act → Except Err (St × List Step)
  | st, [] => .ok (st, [])
  | st, a :: as =>
    match runAct T st a with
    | .error e => .error e
    | .ok (st, ss) =>
      match runActs T st as with
      | .error e => .error e
      | .ok (st, ss') => .ok (st, ss ++ ss')

theorem runActs_append (T : Tree) (st : St) (as bs : List Act) : runActs T st (as ++ bs) =
    match runActs T st as with
    | .error e => .error e
    | .ok (st, ss) =>
      match runActs T st bs with
      | .error e => .error e
      | .ok (st, ss') => .ok (st, ss ++ ss') := by
  induction as generalizing st with
  | nil =>
    simp only [List.nil_append, runActs]
    split <;> rename_i h
    · simp [h]
    · simp [h]
  | cons a as ih =>
    simp only [List.cons_append, runActs]
    cases h : runAct T st a with
    | error e => rfl
    | ok r =>
      obtain ⟨st1, ss1⟩ := r
      simp only [ih]
      cases h1 : runActs T st1 as with
      | error e => rfl
      | ok r =>
        obtain ⟨st2, ss2⟩ := r
        simp only
        cases h2 : runActs T st2 bs with
        | error e => rfl
        | ok r => simp

/-! ### counting the readers of a buffer -/

/-- how many of the connections `todo` read the buffer -/
def cnt (out : Nat → Nat → Buf) (todo : List (Nat × Nat)) (b : Buf) : Nat := todo.countP fun pk => out pk.1 pk.2 = b

theorem cnt_cons (out : Nat → Nat → Buf) (pk : Nat × Nat) (todo : List (Nat × Nat)) (b : Buf) :
    cnt out (pk :: todo) b = cnt out todo b + if out pk.1 pk.2 = b then 1 else 0 := by
  simp [cnt, List.countP_cons]

theorem cnt_pos {out : Nat → Nat → Buf} {todo : List (Nat × Nat)} {b : Buf} : 0 < cnt out todo b ↔
    ∃ pk ∈ todo, out pk.1 pk.2 = b := by simp [cnt, List.countP_pos_iff]

/-- after one outlet got buffer `b`: the readers of the buffer are the old ones and those of the outlet -/
theorem cnt_set (out : Nat → Nat → Buf) (todo : List (Nat × Nat)) (d : Nat × Nat) (b x : Buf) (hd : out d.1 d.2 ≠ x) :
    cnt (fun o k => if o = d.1 ∧ k = d.2 then b else out o k) todo x
      = cnt out todo x + if b = x then todo.count d else 0 := by
  induction todo with
  | nil => simp [cnt]
  | cons pk todo ih =>
    rw [cnt_cons, cnt_cons, ih]
    by_cases hp : pk = d
    · subst hp
      simp only [and_self, if_true, hd, if_false, List.count_cons_self, Nat.add_zero]
      split <;> omega
    · have h1 : ¬ (pk.1 = d.1 ∧ pk.2 = d.2) := fun h => hp (Prod.ext h.1 h.2)
      simp only [h1, if_false]
      rw [List.count_cons_of_ne hp]
      omega

/-- the state of the assignment when the connections `todo` have still to be read -/
structure GoodC (st : St) (todo : List (Nat × Nat)) : Prop where
  pools : ∀ t, PoolOk (st.pool t)
  bound : ∀ p k t i, st.out p k = .tmp t i → i < (st.pool t).length
  live : ∀ t i, 0 < cnt st.out todo (.tmp t i) → ∃ n, (i, n) ∈ st.pool t ∧ (cnt st.out todo (.tmp t i) : Int) ≤ n

theorem pool_unique {p : Pool} (h : PoolOk p) {i : Nat} {n m : Int} (h1 : (i, n) ∈ p) (h2 : (i, m) ∈ p) : n = m :=
  (Prod.mk.inj (List.inj_on_of_nodup_map h.nodup h1 h2 rfl)).2

/-- the count of one buffer changes -/
theorem change_good {st : St} {todo todo' : List (Nat × Nat)} {out' : Nat → Nat → Buf} (t : Ty) (b : Nat) (n d : Int)
    (pools : ∀ t, PoolOk (st.pool t)) (bound : ∀ p k t i, out' p k = .tmp t i → i < (st.pool t).length)
    (live : ∀ t i, 0 < cnt st.out todo (.tmp t i) → ∃ n, (i, n) ∈ st.pool t ∧ (cnt st.out todo (.tmp t i) : Int) ≤ n)
    (hb : (b, n) ∈ st.pool t) (h1 : (cnt out' todo' (.tmp t b) : Int) ≤ n + d)
    (h2 : ∀ t' i, ¬ (t' = t ∧ i = b) → cnt out' todo' (.tmp t' i) ≤ cnt st.out todo (.tmp t' i)) :
    ∃ p', change (st.pool t) b d = some p' ∧ (p'.length = (st.pool t).length) ∧
      GoodC ⟨fun t' => if t' = t then p' else st.pool t', out'⟩ todo' := by
  obtain ⟨p', e, ok, hin, hsame, hlen⟩ := change_ok (pools t) b n d hb
  refine ⟨p', e, hlen, ⟨fun t' => ?_, fun p k t' i hi => ?_, fun t' i hi => ?_⟩⟩
  · by_cases e : t' = t <;> simp [e, ok, pools]
  · have := bound p k t' i hi
    by_cases e : t' = t
    · subst e; simp [hlen, this]
    · simp [e, this]
  · simp only at hi ⊢
    by_cases e : t' = t ∧ i = b
    · obtain ⟨rfl, rfl⟩ := e
      exact ⟨n + d, by simpa using hin, h1⟩
    · have h3 := h2 t' i e
      obtain ⟨m, h4, h5⟩ := live t' i (by omega)
      refine ⟨m, ?_, by omega⟩
      by_cases e' : t' = t
      · subst e'
        simp only [if_true]
        exact (hsame i m fun hb => e ⟨rfl, hb⟩).mpr h4
      · simpa [e'] using h4

theorem releaseC_ok {st : St} {pk : Nat × Nat} {todo : List (Nat × Nat)} (h : GoodC st (pk :: todo))
    (hk : ∀ c, st.out pk.1 pk.2 ≠ .output c) :
    ∃ st', release st (st.out pk.1 pk.2) = .ok st' ∧ GoodC st' todo ∧ st'.out = st.out ∧
      ∀ t, (st'.pool t).length = (st.pool t).length := by
  have weaken : (∀ t i, st.out pk.1 pk.2 ≠ .tmp t i) → GoodC st todo := by
    intro hn
    refine ⟨h.pools, h.bound, fun t i hi => ?_⟩
    have := h.live t i
    rw [cnt_cons, if_neg (hn t i)] at this
    exact this hi
  cases ho : st.out pk.1 pk.2 with
  | zero => exact ⟨st, rfl, weaken (by simp [ho]), rfl, fun _ => rfl⟩
  | input c => exact ⟨st, rfl, weaken (by simp [ho]), rfl, fun _ => rfl⟩
  | output c => exact absurd ho (hk c)
  | tmp t b =>
    have hc : ∀ t' i, cnt st.out (pk :: todo) (.tmp t' i) = cnt st.out todo (.tmp t' i) + if t' = t ∧ i = b then 1 else 0 := by
      intro t' i
      rw [cnt_cons, ho]
      simp only [Buf.tmp.injEq]
      congr 1
      by_cases e : t' = t ∧ i = b
      · rw [if_pos e, if_pos ⟨e.1.symm, e.2.symm⟩]
      · rw [if_neg e, if_neg fun h => e ⟨h.1.symm, h.2.symm⟩]
    obtain ⟨n, h1, h2⟩ := h.live t b (by rw [hc]; simp)
    rw [hc, if_pos ⟨rfl, rfl⟩] at h2
    obtain ⟨p', e, hlen, good⟩ := change_good (out' := st.out) (todo' := todo) t b n (-1) h.pools h.bound h.live h1
      (by push_cast at h2; omega) (fun t' i hne => by rw [hc]; omega)
    refine ⟨st.setPool t p', by simp [release, e], good, rfl, fun t' => ?_⟩
    by_cases e' : t' = t
    · subst e'; simp [St.setPool, hlen]
    · simp [St.setPool, e']

theorem assignInletsC_ok (ls : List Inlet) (st : St) (todo : List (Nat × Nat)) (h : GoodC st (readsOf ls ++ todo))
    (one : ∀ l ∈ ls, (l.conns.filter (·.isSignal)).length ≤ 1)
    (src : ∀ pk ∈ readsOf ls, ∀ c, st.out pk.1 pk.2 ≠ .output c) :
    ∃ st', assignInlets st ls = .ok (st', ls.map (inletBuf st.out)) ∧ GoodC st' todo ∧ st'.out = st.out ∧
      ∀ t, (st'.pool t).length = (st.pool t).length := by
  induction ls generalizing st with
  | nil => exact ⟨st, rfl, h, rfl, fun _ => rfl⟩
  | cons l ls ih =>
    have one' : ∀ l ∈ ls, (l.conns.filter (·.isSignal)).length ≤ 1 := fun l hl => one l (by simp [hl])
    have hr : readsOf (l :: ls) = ((l.conns.filter (·.isSignal)).map fun c => (c.src, c.outlet)) ++ readsOf ls := rfl
    cases hf : l.conns.filter (·.isSignal) with
    | nil =>
      rw [hr, hf] at h src
      obtain ⟨st', h1, h2, h3, h4⟩ := ih st h one' src
      exact ⟨st', by simp [assignInlets, assignInlet, hf, h1, inletBuf], h2, h3, h4⟩
    | cons c cs =>
      cases cs with
      | cons c' cs => have := one l (by simp); rw [hf] at this; simp at this
      | nil =>
        rw [hr, hf] at h src
        obtain ⟨st1, h1, h2, h3, h4⟩ := releaseC_ok (pk := (c.src, c.outlet)) (todo := readsOf ls ++ todo) h
          (src (c.src, c.outlet) (by simp))
        obtain ⟨st', h5, h6, h7, h8⟩ := ih st1 h2 one' fun pk hpk => by rw [h3]; exact src pk (by simp [hpk])
        refine ⟨st', ?_, h6, h7.trans h3, fun t => (h8 t).trans (h4 t)⟩
        simp only at h1
        simp [assignInlets, assignInlet, hf, h1, h5, h3, inletBuf]

/-- sharing a buffer -/
theorem share_ok {st : St} {s d : Nat × Nat} {n : Nat} {todo : List (Nat × Nat)} (h : GoodC st (s :: todo))
    (hk : ∀ c, st.out s.1 s.2 ≠ .output c) (hd : ∀ t i, st.out d.1 d.2 ≠ .tmp t i) (hn : todo.count d ≤ n) :
    ∃ st', share st s d n = .ok st' ∧ GoodC st' todo ∧
      st'.out = (fun o k => if o = d.1 ∧ k = d.2 then st.out s.1 s.2 else st.out o k) ∧
      ∀ t, (st'.pool t).length = (st.pool t).length := by
  let out' : Nat → Nat → Buf := fun o k => if o = d.1 ∧ k = d.2 then st.out s.1 s.2 else st.out o k
  have hc : ∀ t i, cnt out' todo (.tmp t i) = cnt st.out todo (.tmp t i) + if st.out s.1 s.2 = .tmp t i then todo.count d else 0 :=
    fun t i => cnt_set st.out todo d _ _ (hd t i)
  have hbound : ∀ p k t i, out' p k = .tmp t i → i < (st.pool t).length := by
    intro p k t i ho
    simp only [out'] at ho
    split at ho
    · exact h.bound _ _ _ _ ho
    · exact h.bound _ _ _ _ ho
  have weaken : (∀ t i, st.out s.1 s.2 ≠ .tmp t i) → GoodC (st.setOut d.1 d.2 (st.out s.1 s.2)) todo := by
    intro hs
    refine ⟨h.pools, hbound, fun t i hi => ?_⟩
    have hc' : cnt (st.setOut d.1 d.2 (st.out s.1 s.2)).out todo (.tmp t i) = cnt st.out todo (.tmp t i) := by
      rw [show (st.setOut d.1 d.2 (st.out s.1 s.2)).out = out' from rfl, hc, if_neg (hs t i), Nat.add_zero]
    rw [hc'] at hi ⊢
    have := h.live t i
    rw [cnt_cons, if_neg (hs t i)] at this
    exact this hi
  unfold share
  cases ho : st.out s.1 s.2 with
  | zero => exact ⟨_, rfl, by rw [← ho]; exact weaken (by simp [ho]), by rw [← ho]; rfl, fun _ => rfl⟩
  | input c => exact ⟨_, rfl, by rw [← ho]; exact weaken (by simp [ho]), by rw [← ho]; rfl, fun _ => rfl⟩
  | output c => exact absurd ho (hk c)
  | tmp t b =>
    have hcs : cnt st.out (s :: todo) (.tmp t b) = cnt st.out todo (.tmp t b) + 1 := by rw [cnt_cons, if_pos ho]
    obtain ⟨m, h1, h2⟩ := h.live t b (by rw [hcs]; omega)
    rw [hcs] at h2
    obtain ⟨p', e, hlen, good⟩ := change_good (out' := out') (todo' := todo) t b m ((n : Int) - 1) h.pools hbound h.live h1
      (by rw [hc, if_pos ho]; push_cast at h2 ⊢; omega)
      (fun t' i hne => by
        rw [hc, if_neg (by rw [ho]; intro e; exact hne ⟨(Buf.tmp.inj e).1.symm, (Buf.tmp.inj e).2.symm⟩), cnt_cons]
        omega)
    refine ⟨_, ?_, good, by simp only [out', ho], fun t' => ?_⟩
    · simp only [retain, St.setOut, e, St.setPool, out', ho]
    · by_cases e' : t' = t
      · subst e'; simp [hlen]
      · simp [e']

/-! ### outlets -/

/-- the state while the outlets of `o` are assigned, `k0` of them done -/
structure GoodC2 (o : Nat) (st : St) (todo : List (Nat × Nat)) (ex : List (Ty × Nat)) (k0 : Nat) : Prop where
  good : GoodC st todo
  held : ∀ k < k0, ∀ t i, st.out o k = .tmp t i → (t, i) ∈ ex ∨ ∃ n, 0 < n ∧ (i, n) ∈ st.pool t
  own : ∀ k < k0, ∀ t i p k', st.out o k = .tmp t i → (p, k') ∈ todo → st.out p k' = .tmp t i → (p, k') = (o, k)
  dist : ∀ k < k0, ∀ k' < k0, ∀ t i, st.out o k = .tmp t i → st.out o k' = .tmp t i → k = k'
  exb : ∀ t i, (t, i) ∈ ex → i < (st.pool t).length

theorem GoodC2.skip {o : Nat} {st : St} {todo : List (Nat × Nat)} {ex : List (Ty × Nat)} {k0 : Nat}
    (h : GoodC2 o st todo ex k0) (hn : ∀ t i, st.out o k0 ≠ .tmp t i) : GoodC2 o st todo ex (k0 + 1) := by
  have lt : ∀ k < k0 + 1, ∀ t i, st.out o k = .tmp t i → k < k0 := by
    intro k hk t i ho
    rcases Nat.lt_succ_iff_lt_or_eq.mp hk with h1 | rfl
    · exact h1
    · exact absurd ho (hn t i)
  exact ⟨h.good, fun k hk t i ho => h.held k (lt k hk t i ho) t i ho,
    fun k hk t i p k' ho => h.own k (lt k hk t i ho) t i p k' ho,
    fun k hk k' hk' t i ho ho' => h.dist k (lt k hk t i ho) k' (lt k' hk' t i ho') t i ho ho', h.exb⟩

theorem assignOutletsC_ok (o : Nat) (todo : List (Nat × Nat)) (ls : List Outlet) (st : St) (ex : List (Ty × Nat)) (k0 : Nat)
    (h : GoodC2 o st todo ex k0)
    (fresh : ∀ k, k0 ≤ k → ∀ t i, st.out o k ≠ .tmp t i)
    (cntl : ∀ j l, ls[j]? = some l → todo.count (o, k0 + j) ≤ l.conns) :
    (∃ ex', GoodC2 o (assignOutlets o st ex k0 ls) todo ex' (k0 + ls.length)) ∧
    (∀ p k, (p ≠ o ∨ k < k0 ∨ k0 + ls.length ≤ k) → (assignOutlets o st ex k0 ls).out p k = st.out p k) ∧
    (∀ t, (st.pool t).length ≤ ((assignOutlets o st ex k0 ls).pool t).length) ∧
    (∀ j l, ls[j]? = some l → if l.ty ≠ none ∧ st.out o (k0 + j) = .zero then
        ∃ t i, (assignOutlets o st ex k0 ls).out o (k0 + j) = .tmp t i
      else (assignOutlets o st ex k0 ls).out o (k0 + j) = st.out o (k0 + j)) := by
  induction ls generalizing st ex k0 with
  | nil => exact ⟨⟨ex, h⟩, fun _ _ _ => rfl, fun _ => Nat.le_refl _, by simp⟩
  | cons l ls ih =>
    have cnt' : ∀ j l', ls[j]? = some l' → todo.count (o, k0 + 1 + j) ≤ l'.conns := fun j l' hj => by
      have := cntl (j + 1) l' (by simpa using hj)
      rwa [show k0 + (j + 1) = k0 + 1 + j by omega] at this
    -- an outlet that gets no buffer
    have skip : ∀ r, (l.ty = none ∨ st.out o k0 ≠ .zero) → r = assignOutlets o st ex (k0 + 1) ls →
        (∃ ex', GoodC2 o r todo ex' (k0 + (l :: ls).length)) ∧
        (∀ p k, (p ≠ o ∨ k < k0 ∨ k0 + (l :: ls).length ≤ k) → r.out p k = st.out p k) ∧
        (∀ t, (st.pool t).length ≤ (r.pool t).length) ∧
        (∀ j l', (l :: ls)[j]? = some l' → if l'.ty ≠ none ∧ st.out o (k0 + j) = .zero then
            ∃ t i, r.out o (k0 + j) = .tmp t i else r.out o (k0 + j) = st.out o (k0 + j)) := by
      rintro r hs rfl
      obtain ⟨h1, h2, h3, h4⟩ := ih st ex (k0 + 1) (h.skip (fresh k0 (Nat.le_refl _))) (fun k hk => fresh k (by omega)) cnt'
      refine ⟨?_, fun p k hk => h2 p k ?_, h3, fun j l' hj => ?_⟩
      · rw [List.length_cons, show k0 + (ls.length + 1) = k0 + 1 + ls.length by omega]; exact h1
      · simp only [List.length_cons] at hk; omega
      · cases j with
        | zero =>
          simp at hj; subst hj
          rw [if_neg (by rintro ⟨a, b⟩; rcases hs with c | c; exacts [a c, c b])]
          exact h2 o k0 (Or.inr (Or.inl (by omega)))
        | succ j =>
          have := h4 j l' (by simpa using hj)
          rwa [show k0 + 1 + j = k0 + (j + 1) by omega] at this
    rw [assignOutlets]
    split
    · rename_i t hty
      split
      · rename_i hz
        have hexb : ∀ b ∈ (ex.filter (·.1 = t)).map (·.2), b < (st.pool t).length := by
          intro b hb
          obtain ⟨e, he, rfl⟩ := List.mem_map.mp hb
          obtain ⟨h1, h2⟩ := List.mem_filter.mp he
          simp only [decide_eq_true_eq] at h2
          subst h2
          exact h.exb e.1 e.2 h1
        obtain ⟨g1, g2, g3, g4, g5, g6, g7⟩ := getBuffer_ok (h.good.pools t) l.conns _ hexb
        generalize hr : getBuffer (st.pool t) (l.conns : Int) ((ex.filter (·.1 = t)).map (·.2)) = r at *
        obtain ⟨b, p'⟩ := r
        simp only at g1 g2 g3 g4 g5 g6 g7
        -- the new state
        let st1 := (st.setPool t p').setOut o k0 (.tmp t b)
        have out1 : ∀ p k, ¬ (p = o ∧ k = k0) → st1.out p k = st.out p k := fun p k hk => by
          simp [st1, St.setOut, St.setPool, hk]
        have out0 : st1.out o k0 = .tmp t b := by simp [st1, St.setOut]
        have poolt : st1.pool t = p' := by simp [st1, St.setOut, St.setPool]
        have pool' : ∀ t', t' ≠ t → st1.pool t' = st.pool t' := fun t' ht => by simp [st1, St.setOut, St.setPool, ht]
        have len : ∀ t', (st.pool t').length ≤ (st1.pool t').length := fun t' => by
          by_cases e : t' = t
          · subst e; rw [poolt]; exact g6
          · rw [pool' t' e]
        -- nothing that is still to be read has the new buffer
        have none : cnt st.out todo (.tmp t b) = 0 := by
          by_contra hne
          obtain ⟨n, h1, h2⟩ := h.good.live t b (by omega)
          have := g5 n h1
          omega
        have ne : ∀ p k t' i, (p, k) ∈ todo → st.out p k = .tmp t' i → ¬ (t' = t ∧ i = b) := by
          rintro p k t' i hm ho ⟨rfl, rfl⟩
          have := cnt_pos.mpr ⟨(p, k), hm, ho⟩
          omega
        have ne' : ∀ k < k0, ∀ t' i, st.out o k = .tmp t' i → ¬ (t' = t ∧ i = b) := by
          rintro k hk t' i ho ⟨rfl, rfl⟩
          rcases h.held k hk t' i ho with h1 | ⟨n, h1, h2⟩
          · exact g4 (List.mem_map.mpr ⟨(t', i), List.mem_filter.mpr ⟨h1, by simp⟩, rfl⟩)
          · have := g5 n h2; omega
        have cset : ∀ t' i, cnt st1.out todo (.tmp t' i) = cnt st.out todo (.tmp t' i)
            + if Buf.tmp t b = .tmp t' i then todo.count (o, k0) else 0 := by
          intro t' i
          exact cnt_set st.out todo (o, k0) (.tmp t b) (.tmp t' i) (fresh k0 (Nat.le_refl _) t' i)
        have good1 : GoodC st1 todo := by
          refine ⟨fun t' => ?_, fun p k t' i ho => ?_, fun t' i hi => ?_⟩
          · by_cases e : t' = t
            · subst e; rw [poolt]; exact g1
            · rw [pool' t' e]; exact h.good.pools t'
          · by_cases e : p = o ∧ k = k0
            · obtain ⟨rfl, rfl⟩ := e
              rw [out0] at ho
              obtain ⟨rfl, rfl⟩ := Buf.tmp.inj ho
              rw [poolt]; exact g7
            · rw [out1 p k e] at ho
              exact Nat.lt_of_lt_of_le (h.good.bound p k t' i ho) (len t')
          · by_cases e : t' = t ∧ i = b
            · obtain ⟨rfl, rfl⟩ := e
              refine ⟨l.conns, by rw [poolt]; exact g2, ?_⟩
              rw [cset, none, if_pos rfl, Nat.zero_add]
              exact_mod_cast cntl 0 l (by simp)
            · have hne : ¬ Buf.tmp t b = .tmp t' i := fun h => e ⟨(Buf.tmp.inj h).1.symm, (Buf.tmp.inj h).2.symm⟩
              rw [cset, if_neg hne, Nat.add_zero] at hi ⊢
              obtain ⟨n, h1, h2⟩ := h.good.live t' i hi
              refine ⟨n, ?_, h2⟩
              by_cases e' : t' = t
              · subst e'
                rw [poolt, g3 i n fun hb => e ⟨rfl, hb⟩]; exact h1
              · rw [pool' t' e']; exact h1
        have good2 : GoodC2 o st1 todo (if l.conns = 0 then (t, b) :: ex else ex) (k0 + 1) := by
          refine ⟨good1, fun k hk t' i ho => ?_, fun k hk t' i p k' ho hm ho' => ?_, fun k hk k' hk' t' i ho ho' => ?_,
            fun t' i hm => ?_⟩
          · by_cases e : k = k0
            · subst e
              rw [out0] at ho
              obtain ⟨rfl, rfl⟩ := Buf.tmp.inj ho
              by_cases hc : l.conns = 0
              · left; simp [hc]
              · right; exact ⟨l.conns, by omega, by rw [poolt]; exact g2⟩
            · rw [out1 o k (by simp [e])] at ho
              rcases h.held k (by omega) t' i ho with h1 | ⟨n, h1, h2⟩
              · left; split <;> simp [h1]
              · right
                refine ⟨n, h1, ?_⟩
                by_cases e' : t' = t
                · subst e'
                  rw [poolt, g3 i n fun hb => ne' k (by omega) t' i ho ⟨rfl, hb⟩]; exact h2
                · rw [pool' t' e']; exact h2
          · by_cases e : k = k0
            · subst e
              rw [out0] at ho
              obtain ⟨rfl, rfl⟩ := Buf.tmp.inj ho
              by_cases e2 : p = o ∧ k' = k
              · rw [e2.1, e2.2]
              · rw [out1 p k' e2] at ho'
                exact absurd ⟨rfl, rfl⟩ (ne p k' _ _ hm ho')
            · rw [out1 o k (by simp [e])] at ho
              by_cases e2 : p = o ∧ k' = k0
              · obtain ⟨rfl, rfl⟩ := e2
                rw [out0] at ho'
                obtain ⟨rfl, rfl⟩ := Buf.tmp.inj ho'
                exact absurd ⟨rfl, rfl⟩ (ne' k (by omega) _ _ ho)
              · rw [out1 p k' e2] at ho'
                exact h.own k (by omega) t' i p k' ho hm ho'
          · by_cases e : k = k0
            · by_cases e2 : k' = k0
              · rw [e, e2]
              · subst e
                rw [out0] at ho
                obtain ⟨rfl, rfl⟩ := Buf.tmp.inj ho
                rw [out1 o k' (by simp [e2])] at ho'
                exact absurd ⟨rfl, rfl⟩ (ne' k' (by omega) _ _ ho')
            · rw [out1 o k (by simp [e])] at ho
              by_cases e2 : k' = k0
              · subst e2
                rw [out0] at ho'
                obtain ⟨rfl, rfl⟩ := Buf.tmp.inj ho'
                exact absurd ⟨rfl, rfl⟩ (ne' k (by omega) _ _ ho)
              · rw [out1 o k' (by simp [e2])] at ho'
                exact h.dist k (by omega) k' (by omega) t' i ho ho'
          · split at hm
            · rcases List.mem_cons.mp hm with h1 | h1
              · obtain ⟨rfl, rfl⟩ := Prod.mk.inj h1
                rw [poolt]; exact g7
              · exact Nat.lt_of_lt_of_le (h.exb t' i h1) (len t')
            · exact Nat.lt_of_lt_of_le (h.exb t' i hm) (len t')
        obtain ⟨h1, h2, h3, h4⟩ := ih st1 (if l.conns = 0 then (t, b) :: ex else ex) (k0 + 1) good2
          (fun k hk t' i => by rw [out1 o k (by omega)]; exact fresh k (by omega) t' i) cnt'
        refine ⟨?_, fun p k hk => ?_, fun t' => Nat.le_trans (len t') (h3 t'), fun j l' hj => ?_⟩
        · rw [List.length_cons, show k0 + (ls.length + 1) = k0 + 1 + ls.length by omega]; exact h1
        · simp only [List.length_cons] at hk
          rw [← out1 p k (by omega)]
          exact h2 p k (by omega)
        · cases j with
          | zero =>
            simp at hj; subst hj
            rw [if_pos ⟨by simp [hty], hz⟩]
            exact ⟨t, b, (h2 o k0 (by omega)).trans out0⟩
          | succ j =>
            have := h4 j l' (by simpa using hj)
            rw [show k0 + 1 + j = k0 + (j + 1) by omega, out1 o (k0 + (j + 1)) (by omega)] at this
            exact this
      · rename_i hz
        exact skip _ (Or.inr hz) rfl
    · rename_i hty
      exact skip _ (Or.inl hty) rfl

/-! ### the induction -/

/-- a list of steps is good -/
structure ActsOk [AddCommMonoid α] (T : Tree) (F : Nat → List α → List α) (inp : Nat → α) (env : Nat → Nat → α)
    (A : List Act) : Prop where
  /-- no outlet belongs to two steps -/
  disj : A.Pairwise fun a b => ∀ pk, a.touches pk → ¬ b.touches pk
  /-- a step uses what was made before, an input of the patch, or silence -/
  avail : ∀ pre a post, A = pre ++ a :: post → ∀ pk ∈ a.reads T.obj, (∃ b ∈ pre, b.makes T.obj pk) ∨
    ((∀ b ∈ A, ¬ b.makes T.obj pk) ∧
      ((Graph.init ⟨[], T.obj⟩).out pk.1 pk.2 = .zero ∧ env pk.1 pk.2 = 0 ∨
        ∃ ch, (Graph.init ⟨[], T.obj⟩).out pk.1 pk.2 = .input ch ∧ env pk.1 pk.2 = inp ch))
  kinds : ∀ o ∈ atoms A,
    ((∀ l ∈ (T.obj o).inlets, l.preset = .zero) ∧ (∀ l ∈ (T.obj o).outlets, l.preset = .zero)) ∨
    ∃ conns c, T.obj o = dacObj conns c
  one : ∀ o ∈ atoms A, ∀ l ∈ (T.obj o).inlets, (l.conns.filter (·.isSignal)).length ≤ 1
  count : ∀ o ∈ atoms A, ∀ (k : Nat) (out : Outlet), (T.obj o).outlets[k]? = some out →
    (A.flatMap (Act.reads T.obj)).count (o, k) ≤ out.conns
  countA : ∀ s d n, Act.link s d n ∈ A → (A.flatMap (Act.reads T.obj)).count d ≤ n ∧
    ∀ t i, (Graph.init ⟨[], T.obj⟩).out d.1 d.2 ≠ .tmp t i
  flow : ∀ o ∈ atoms A, dacChan (T.obj o) = none → ∀ k v,
    (F o ((T.obj o).inlets.map (inletVal env)))[k]? = some v → env o k = v
  flowA : ∀ s d n, Act.link s d n ∈ A → env d.1 d.2 = env s.1 s.2
  dac : ∀ o ∈ atoms A, (dacChan (T.obj o)).isSome → ∀ x y, F o [x, y] = [x + y]
  len : ∀ o ∈ atoms A, ∀ l, l.length = (T.obj o).inlets.length → (F o l).length = (T.obj o).outlets.length

/-- invariant of execution: `done` has been executed, `todo` has still to be read -/
structure SimC [AddCommMonoid α] (T : Tree) (inp : Nat → α) (env : Nat → Nat → α) (st : St) (s : Store α) (done : List Act)
    (todo : List (Nat × Nat)) (acc : Nat → α) : Prop where
  good : GoodC st todo
  holds : ∀ pk ∈ todo, (∃ b ∈ done, b.makes T.obj pk) → s (st.out pk.1 pk.2) = env pk.1 pk.2 ∧
    ∀ c, st.out pk.1 pk.2 ≠ .output c
  zero : s .zero = 0
  input : ∀ c, s (.input c) = inp c
  output : ∀ c, s (.output c) = acc c
  fresh : ∀ pk : Nat × Nat, (∀ b ∈ done, ¬ b.makes T.obj pk) → st.out pk.1 pk.2 = (Graph.init ⟨[], T.obj⟩).out pk.1 pk.2

section
variable [AddCommMonoid α] (T : Tree) (F : Nat → List α → List α) (inp : Nat → α) (env : Nat → Nat → α)

/-- the main induction -/
theorem runActs_ok (A : List Act) (ok : ActsOk T F inp env A) (as done : List Act) (hdone : A = done ++ as) (st : St)
    (s : Store α) (acc : Nat → α) (sim : SimC T inp env st s done (as.flatMap (Act.reads T.obj)) acc) :
    ∃ st' ss, runActs T st as = .ok (st', ss) ∧ ss.map (·.id) = atoms as ∧
      (∀ x ∈ (exec F s ss).2, dacChan (T.obj x.1) = none → x.2 = (T.obj x.1).inlets.map (inletVal env)) ∧
      (∀ c, (exec F s ss).1 (.output c) = acc c + outputSum ⟨[], T.obj⟩ env (atoms as) c) ∧
      (∀ x ∈ ss, ∀ t i, Buf.tmp t i ∈ x.ins ∨ Buf.tmp t i ∈ x.outs → i < numBuffers (st'.pool t)) ∧
      (∀ x ∈ ss, ∀ (k k' : Nat) (t : Ty) (i : Nat), x.outs[k]? = some (Buf.tmp t i) → x.outs[k']? = some (Buf.tmp t i) → k = k') ∧
      (∀ t, (st.pool t).length ≤ (st'.pool t).length) := by
  induction as generalizing done st s acc with
  | nil => exact ⟨st, [], rfl, rfl, by simp [exec], by simp [exec, outputSum, sim.output, atoms], by simp, by simp, fun _ => Nat.le_refl _⟩
  | cons a as ih =>
    have hsub : (as.flatMap (Act.reads T.obj)).Sublist (A.flatMap (Act.reads T.obj)) := by
      rw [hdone]; simp only [List.flatMap_append, List.flatMap_cons]
      exact (List.sublist_append_right _ _).trans (List.sublist_append_right _ _)
    -- what the step uses
    have hread : ∀ pk ∈ a.reads T.obj, s (st.out pk.1 pk.2) = env pk.1 pk.2 ∧ ∀ c, st.out pk.1 pk.2 ≠ .output c := by
      intro pk hpk
      rcases ok.avail done a as hdone pk hpk with h | ⟨h1, h2⟩
      · exact sim.holds pk (by simp [hpk]) h
      · rw [sim.fresh pk fun b hb => h1 b (by simp [hdone, hb])]
        rcases h2 with ⟨h2, h3⟩ | ⟨ch, h2, h3⟩
        · rw [h2, h3]; exact ⟨sim.zero, by simp⟩
        · rw [h2, h3]; exact ⟨sim.input ch, by simp⟩
    have hdj : ∀ b ∈ done, ∀ pk, b.touches pk → ¬ a.touches pk := by
      have := ok.disj
      rw [hdone, List.pairwise_append] at this
      exact fun b hb pk h => this.2.2 b hb a (by simp) pk h
    cases a with
    | link sp d n =>
      have hm : Act.link sp d n ∈ A := by simp [hdone]
      have hmk : ∀ b ∈ done, ¬ b.makes T.obj d := fun b hb h => hdj b hb d (Act.touches_of_makes h) rfl
      have hfr := sim.fresh d hmk
      have hkk := hread sp (by simp [Act.reads])
      obtain ⟨st1, e1, g1, o1, l1⟩ := share_ok (st := st) (s := sp) (d := d) (n := n) (todo := as.flatMap (Act.reads T.obj))
        sim.good hkk.2 (by rw [hfr]; exact (ok.countA _ _ _ hm).2) (Nat.le_trans (hsub.count_le d) (ok.countA _ _ _ hm).1)
      have od : st1.out d.1 d.2 = st.out sp.1 sp.2 := by rw [o1]; simp
      have oe : ∀ pk, pk ≠ d → st1.out pk.1 pk.2 = st.out pk.1 pk.2 := fun pk h => by
        rw [o1]; exact if_neg fun e => h (Prod.ext e.1 e.2)
      have sim1 : SimC T inp env st1 s (done ++ [.link sp d n]) (as.flatMap (Act.reads T.obj)) acc := by
        refine ⟨g1, fun pk hpk hb => ?_, sim.zero, sim.input, sim.output, fun pk hb => ?_⟩
        · by_cases e : pk = d
          · subst e
            rw [od, ok.flowA _ _ _ hm]; exact hkk
          · rw [oe pk e]
            refine sim.holds pk (by simp [hpk]) ?_
            obtain ⟨b, hb, hbm⟩ := hb
            rcases List.mem_append.mp hb with hb | hb
            · exact ⟨b, hb, hbm⟩
            · simp at hb; subst hb; exact absurd hbm e
        · have e : pk ≠ d := fun e => hb (.link sp d n) (by simp) e
          rw [oe pk e]
          exact sim.fresh pk fun b h => hb b (by simp [h])
      obtain ⟨st', ss, h1, h2, h3, h4, h5, h6, h7⟩ := ih (done ++ [.link sp d n]) (by simp [hdone]) st1 s acc sim1
      refine ⟨st', ss, ?_, h2, h3, h4, h5, h6, fun t => by rw [← l1 t]; exact h7 t⟩
      simp [runActs, runAct, e1, h1]
    | atom o =>
      have hoA : o ∈ atoms A := mem_atoms.mpr (by simp [hdone])
      have hod : ∀ k, ∀ b ∈ done, ¬ b.makes T.obj (o, k) := fun k b hb h => hdj b hb (o, k) (Act.touches_of_makes h) rfl
      -- inlets
      obtain ⟨st1, e1, good1, out1, len1⟩ := assignInletsC_ok (T.obj o).inlets st (as.flatMap (Act.reads T.obj)) sim.good
        (ok.one o hoA) fun pk hpk => (hread pk hpk).2
      -- outlets
      have hinit : ∀ k, st1.out o k = (((T.obj o).outlets[k]?).map (·.preset)).getD .zero := fun k => by
        rw [out1]; exact sim.fresh (o, k) (hod k)
      have notmp : ∀ k t i, st1.out o k ≠ .tmp t i := by
        intro k t i
        rw [hinit]
        cases hk : (T.obj o).outlets[k]? with
        | none => simp
        | some out =>
          simp only [Option.map_some, Option.getD_some]
          rcases ok.kinds o hoA with h | ⟨conns, c, h⟩
          · rw [h.2 out (List.mem_of_getElem? hk)]; simp
          · rw [h, dacObj] at hk
            cases k with
            | zero => simp at hk; subst hk; simp
            | succ k => simp at hk
      have g2 : GoodC2 o st1 (as.flatMap (Act.reads T.obj)) [] 0 := ⟨good1, by simp, by simp, by simp, by simp⟩
      have cnt : ∀ j l, (T.obj o).outlets[j]? = some l → (as.flatMap (Act.reads T.obj)).count (o, 0 + j) ≤ l.conns := by
        intro j l hj
        rw [Nat.zero_add]
        exact Nat.le_trans (hsub.count_le _) (ok.count o hoA j l hj)
      obtain ⟨⟨ex', g3⟩, frame, len2, newout⟩ :=
        assignOutletsC_ok o (as.flatMap (Act.reads T.obj)) (T.obj o).outlets st1 [] 0 g2 (fun k _ => notmp k) cnt
      simp only [Nat.zero_add] at g3 frame newout
      generalize hst2 : assignOutlets o st1 [] 0 (T.obj o).outlets = st2 at g3 frame len2 newout
      -- the values read
      have hins : ∀ l ∈ (T.obj o).inlets, l.preset = .zero → s (inletBuf st.out l) = inletVal env l := by
        intro l hl hpre
        unfold inletBuf inletVal
        cases hf : l.conns.filter (·.isSignal) with
        | nil => simp only [hpre]; exact sim.zero
        | cons c cs =>
          cases cs with
          | cons c' cs => have := ok.one o hoA l hl; rw [hf] at this; simp at this
          | nil =>
            refine (hread (c.src, c.outlet) ?_).1
            refine List.mem_flatMap.mpr ⟨l, hl, List.mem_map.mpr ⟨c, ?_, rfl⟩⟩
            rw [hf]; simp
      have hinsmap : dacChan (T.obj o) = none →
          ((T.obj o).inlets.map (inletBuf st.out)).map s = (T.obj o).inlets.map (inletVal env) := by
        intro hd
        rw [List.map_map]
        refine List.map_congr_left fun l hl => hins l hl ?_
        rcases ok.kinds o hoA with h | ⟨conns, c, h⟩
        · exact h.1 l hl
        · rw [h, dacChan_dacObj] at hd; simp at hd
      -- the outlet buffers
      have houts : ∀ k, k < (T.obj o).outlets.length → (∃ t i, st2.out o k = .tmp t i) ∨
          (st2.out o k = .zero) ∨ (∃ conns c, T.obj o = dacObj conns c ∧ st2.out o k = .output c) := by
        intro k hk
        have hl := List.getElem?_eq_getElem hk
        have hn := newout k _ hl
        split at hn
        · exact Or.inl hn
        · right
          rw [hn, hinit, hl]
          simp only [Option.map_some, Option.getD_some]
          rcases ok.kinds o hoA with h | ⟨conns, c, h⟩
          · left; exact h.2 _ (List.getElem_mem hk)
          · right
            refine ⟨conns, c, h, ?_⟩
            have hm := List.getElem_mem hk
            generalize (T.obj o).outlets[k] = l at hm
            rw [h, dacObj] at hm
            simp at hm
            rw [hm]
      have hget : ∀ k b, ((List.range (T.obj o).outlets.length).map (st2.out o))[k]? = some b →
          k < (T.obj o).outlets.length ∧ b = st2.out o k := by
        intro k b hk
        rw [List.getElem?_map] at hk
        by_cases hlt : k < (T.obj o).outlets.length
        · rw [List.getElem?_range hlt] at hk
          simp at hk
          exact ⟨hlt, hk.symm⟩
        · rw [List.getElem?_eq_none (by simpa using hlt)] at hk
          simp at hk
      have hmem : ∀ b, b ∈ (List.range (T.obj o).outlets.length).map (st2.out o) →
          ∃ k, k < (T.obj o).outlets.length ∧ b = st2.out o k := by
        intro b hb
        obtain ⟨k, hk⟩ := List.mem_iff_getElem?.mp hb
        exact ⟨k, hget k b hk⟩
      let ins := ((T.obj o).inlets.map (inletBuf st.out)).map s
      let outs := (List.range (T.obj o).outlets.length).map (st2.out o)
      let s2 := write s outs (F o ins)
      let acc2 : Nat → α := fun c => acc c +
        (if dacChan (T.obj o) = some c then ((T.obj o).inlets.map (inletVal env)).headD 0 else 0)
      have out2 : ∀ p k, p ≠ o → st2.out p k = st.out p k := fun p k hp => by rw [frame p k (Or.inl hp), out1]
      have made : ∀ (k : Nat) (out : Outlet), (T.obj o).outlets[k]? = some out → out.ty ≠ none → out.preset = .zero →
          ∃ t i, st2.out o k = .tmp t i := by
        intro k out h1 h2 h3
        have hn := newout k out h1
        have hi : st1.out o k = .zero := by rw [hinit, h1]; simp [h3]
        rwa [if_pos ⟨h2, hi⟩] at hn
      have unmade : ∀ k, ¬ (Act.atom o).makes T.obj (o, k) → st2.out o k = st.out o k := by
        intro k hk
        cases hl : (T.obj o).outlets[k]? with
        | none => rw [frame o k (Or.inr (Or.inr (by simpa using hl))), out1]
        | some out =>
          have hn := newout k out hl
          rw [if_neg (by
            rintro ⟨a, b⟩
            rw [hinit, hl] at b
            exact hk ⟨rfl, out, hl, a, b⟩), out1] at hn
          exact hn
      have sim2 : SimC T inp env st2 s2 (done ++ [.atom o]) (as.flatMap (Act.reads T.obj)) acc2 := by
        refine ⟨g3.good, fun pk hm hmk => ?_, ?_, fun c => ?_, fun c => ?_, fun pk hp => ?_⟩
        · obtain ⟨b, hb, hbm⟩ := hmk
          by_cases hp : pk.1 = o
          · obtain ⟨p, k⟩ := pk
            simp only at hp
            subst hp
            have hbo : b = .atom p := by
              rcases List.mem_append.mp hb with hb | hb
              · exact absurd hbm (hod k b hb)
              · simpa using hb
            subst hbo
            obtain ⟨-, out, hk0, hty, hpre⟩ := hbm
            obtain ⟨t, i, hout⟩ := made k out hk0 hty hpre
            have hk : k < (T.obj p).outlets.length := by
              by_contra hk
              rw [List.getElem?_eq_none (by omega)] at hk0
              simp at hk0
            have hd : dacChan (T.obj p) = none := by
              rcases ok.kinds p hoA with h | ⟨conns, c, h⟩
              · exact dacChan_zero _ h.2
              · have := List.mem_of_getElem? hk0
                rw [h, dacObj] at this
                simp at this
                rw [this] at hpre
                simp at hpre
            have hlen' : (F p ins).length = (T.obj p).outlets.length := ok.len p hoA ins (by simp [ins])
            have hv := List.getElem?_eq_getElem (l := F p ins) (i := k) (by omega)
            have he := ok.flow p hoA hd k ((F p ins)[k]'(by omega)) (by rw [← hinsmap hd]; exact hv)
            refine ⟨?_, by simp [hout]⟩
            simp only [hout]
            rw [he]
            refine write_at s outs (F p ins) k (.tmp t i) _ ?_ hv (by simp) fun j hj => ?_
            · simp [outs, List.getElem?_range hk, hout]
            · obtain ⟨hj1, hj2⟩ := hget j _ hj
              exact g3.dist j hj1 k hk t i hj2.symm hout
          · have hbd : ∃ b ∈ done, b.makes T.obj pk := by
              rcases List.mem_append.mp hb with hb | hb
              · exact ⟨b, hb, hbm⟩
              · simp at hb; subst hb; exact absurd hbm.1 hp
            obtain ⟨h1, h2⟩ := sim.holds pk (by simp [hm]) hbd
            rw [out2 pk.1 pk.2 hp]
            refine ⟨?_, h2⟩
            rw [← h1]
            by_cases hz : st.out pk.1 pk.2 = .zero
            · rw [hz]; exact write_zero _ _ _
            refine write_other s outs _ _ fun hb => ?_
            obtain ⟨j, hj, hb⟩ := hmem _ hb
            rcases houts j hj with ⟨t, i, h⟩ | h | ⟨_, c, _, h⟩
            · have := g3.own j hj t i pk.1 pk.2 h hm (by rw [out2 pk.1 pk.2 hp, hb, h])
              exact hp (Prod.mk.inj this).1
            · exact hz (hb.trans h)
            · exact h2 c (hb.trans h)
        · exact (write_zero s outs _).trans sim.zero
        · refine (write_other s outs _ _ fun hb => ?_).trans (sim.input c)
          obtain ⟨j, hj, hb⟩ := hmem _ hb
          rcases houts j hj with ⟨t, i, h⟩ | h | ⟨_, c', _, h⟩ <;> rw [h] at hb <;> simp at hb
        · rcases ok.kinds o hoA with h | ⟨conns, c', h⟩
          · have hd := dacChan_zero _ h.2
            simp only [acc2, hd, reduceCtorEq, if_false, add_zero]
            refine (write_other s outs _ _ fun hb => ?_).trans (sim.output c)
            obtain ⟨j, hj, hb⟩ := hmem _ hb
            rcases houts j hj with ⟨t, i, h1⟩ | h1 | ⟨_, c', h2, h1⟩
            · rw [h1] at hb; simp at hb
            · rw [h1] at hb; simp at hb
            · rw [h2, dacChan_dacObj] at hd; simp at hd
          · have ho0 : st2.out o 0 = .output c' := by
              have hn := newout 0 ⟨some .f, 0, .output c'⟩ (by rw [h]; rfl)
              have hi : st1.out o 0 = .output c' := by rw [hinit]; simp [h, dacObj]
              rw [if_neg (by rw [hi]; simp), hi] at hn
              exact hn
            have hl0 : (⟨conns, .zero⟩ : Inlet) ∈ (T.obj o).inlets := by rw [h]; simp [dacObj]
            have hx := hins _ hl0 rfl
            have hins' : ins = [inletVal env ⟨conns, .zero⟩, acc c'] := by
              simp only [ins]
              rw [h]
              simp only [dacObj, List.map_cons, List.map_nil]
              rw [hx]
              have : inletBuf st.out ⟨[], .output c'⟩ = .output c' := rfl
              rw [this, sim.output]
            have houts' : outs = [.output c'] := by
              simp only [outs]
              rw [h]
              simp [dacObj, ho0]
            have hF : F o ins = [inletVal env ⟨conns, .zero⟩ + acc c'] := by
              rw [hins']
              exact ok.dac o hoA (by rw [h, dacChan_dacObj]; rfl) _ _
            simp only [s2, acc2]
            rw [houts', hF, h, dacChan_dacObj]
            by_cases e : c = c'
            · subst e
              simp [write, dacObj, add_comm]
            · have e' : ¬ c' = c := fun h => e h.symm
              simp [write, e, e', sim.output]
        · have h0 := sim.fresh pk fun b hb => hp b (by simp [hb])
          rw [← h0]
          by_cases e : pk.1 = o
          · obtain ⟨p, k⟩ := pk
            simp only at e
            subst e
            exact unmade k (hp (.atom p) (by simp))
          · exact out2 _ _ e
      obtain ⟨st', ss, h1, h2, h3, h4, h5, h6, h7⟩ := ih (done ++ [.atom o]) (by rw [hdone]; simp) st2 s2 acc2 sim2
      have lenle : ∀ t, (st.pool t).length ≤ (st'.pool t).length := fun t => by
        have := len1 t; have := len2 t; have := h7 t; omega
      refine ⟨st', ⟨o, (T.obj o).inlets.map (inletBuf st.out), outs⟩ :: ss, ?_, by simp [h2, atoms], fun x hx hd => ?_, fun c => ?_,
        fun x hx t i hm => ?_, fun x hx k k' t i hk hk' => ?_, lenle⟩
      · simp only [runActs, runAct, Tree.assignAtom, assignObj, e1, hst2, h1, outs, List.cons_append, List.nil_append]
      · rcases List.mem_cons.mp hx with rfl | hx
        · exact hinsmap hd
        · exact h3 x hx hd
      · refine (h4 c).trans ?_
        simp only [acc2, outputSum, atoms]
        rw [add_assoc]
        congr 1
        by_cases e : dacChan (T.obj o) = some c
        · rw [if_pos e, List.filter_cons_of_pos (by simpa using e)]
          simp
        · rw [if_neg e, List.filter_cons_of_neg (by simpa using e), zero_add]
      · rcases List.mem_cons.mp hx with rfl | hx
        · rcases hm with hm | hm
          · obtain ⟨l, hl, hb⟩ := List.mem_map.mp hm
            have hpre : ∀ t i, l.preset ≠ .tmp t i := by
              intro t i
              rcases ok.kinds o hoA with h | ⟨conns, c, h⟩
              · rw [h.1 l hl]; simp
              · rw [h, dacObj] at hl
                simp at hl
                rcases hl with rfl | rfl <;> simp
            unfold inletBuf at hb
            split at hb
            · exact Nat.lt_of_lt_of_le (sim.good.bound _ _ t i hb) (lenle t)
            · exact absurd hb (hpre t i)
          · obtain ⟨j, hj, hb⟩ := hmem _ hm
            exact Nat.lt_of_lt_of_le (g3.good.bound o j t i hb.symm) (h7 t)
        · exact h5 x hx t i hm
      · rcases List.mem_cons.mp hx with rfl | hx
        · obtain ⟨hk1, hk2⟩ := hget k _ hk
          obtain ⟨hk3, hk4⟩ := hget k' _ hk'
          exact g3.dist k hk1 k' hk3 t i hk2.symm hk4.symm
        · exact h6 x hx k k' t i hk hk'

end

end Verif.Signal
