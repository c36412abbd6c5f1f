import Verif.Props.SignalOrder
import Mathlib.Algebra.BigOperators.Group.List.Basic
/-!
# C31, C32: sharing of signal buffers

Specification: `Flow g F inp env` — `env o k` is the signal at outlet `k` of object `o`: every object applied to the signals
connected to its inlets, with the patch inputs at the `[adc~]` outlets.
-/
namespace Verif.Signal
open Relation

variable {α : Type}

/-! ### specification -/

/-- the output object that `[dac~]` is compiled to, HLangDac.py:40-54: adds inlet 0 to output channel `c` -/
def dacObj (conns : List Conn) (c : Nat) : Obj := ⟨[⟨conns, .zero⟩, ⟨[], .output c⟩], [⟨some .f, 0, .output c⟩], true⟩

/-- the channel of an output object -/
def dacChan (o : Obj) : Option Nat :=
  match o.outlets with
  | [l] => match l.preset with
    | .output c => some c
    | _ => none
  | _ => none

/-- the signal at an inlet -/
def inletVal [Zero α] (env : Nat → Nat → α) (l : Inlet) : α :=
  match l.conns.filter (·.isSignal) with
  | [c] => env c.src c.outlet
  | _ => 0

/-- the signals of a patch -/
structure Flow [Zero α] (g : Graph) (F : Nat → List α → List α) (inp : Nat → α) (env : Nat → Nat → α) : Prop where
  ext : ∀ p ∈ g.ids, ∀ k out ch, (g.obj p).outlets[k]? = some out → out.preset = .input ch → env p k = inp ch
  obj : ∀ o ∈ g.ids, (g.obj o).signal → dacChan (g.obj o) = none → ∀ k v,
    (F o ((g.obj o).inlets.map (inletVal env)))[k]? = some v → env o k = v

/-- the signal connections of an object, as (object, outlet) -/
def readsOf (ls : List Inlet) : List (Nat × Nat) := ls.flatMap fun l => (l.conns.filter (·.isSignal)).map fun c => (c.src, c.outlet)

/-- the signal connections of an object -/
def Graph.reads (g : Graph) (o : Nat) : List (Nat × Nat) := readsOf (g.obj o).inlets

/-- well-formed graphs: what the earlier passes deliver -/
structure WF (g : Graph) : Prop where
  nodup : g.ids.Nodup
  /-- a signal object is an ordinary one (its buffers are not preset) or an output object -/
  kinds : ∀ o ∈ g.ids, (g.obj o).signal →
    ((∀ l ∈ (g.obj o).inlets, l.preset = .zero) ∧ (∀ l ∈ (g.obj o).outlets, l.preset = .zero)) ∨
    ∃ conns c, g.obj o = dacObj conns c
  /-- at most one signal connection per inlet -/
  one : ∀ o ∈ g.ids, ∀ l ∈ (g.obj o).inlets, (l.conns.filter (·.isSignal)).length ≤ 1
  /-- signals come from signal outlets of signal objects, or from the patch inputs -/
  source : ∀ o ∈ g.ids, ∀ l ∈ (g.obj o).inlets, ∀ c ∈ l.conns, c.isSignal → c.src ∈ g.ids ∧
    ∃ out, (g.obj c.src).outlets[c.outlet]? = some out ∧
      (((g.obj c.src).signal = true ∧ out.ty ≠ none ∧ out.preset = .zero) ∨
       ((g.obj c.src).signal = false ∧ ∃ ch, out.preset = .input ch))
  /-- buffers are preset only by `[adc~]` and `[dac~]` -/
  presets : ∀ (p k : Nat) (out : Outlet), (g.obj p).outlets[k]? = some out → ∀ t i, out.preset ≠ .tmp t i
  /-- an outlet knows the number of its connections -/
  count : ∀ p ∈ g.ids, ∀ k out, (g.obj p).outlets[k]? = some out → (g.ids.flatMap g.reads).count (p, k) ≤ out.conns

/-! ### the pool -/

/-- buffers are numbered without gaps and occur once -/
structure PoolOk (p : Pool) : Prop where
  nodup : (p.map (·.1)).Nodup
  bound : ∀ e ∈ p, e.1 < p.length

theorem mem_erase_pool {p : Pool} (h : PoolOk p) {e x : Nat × Int} (he : e ∈ p) : x ∈ p.erase e ↔ x ∈ p ∧ x.1 ≠ e.1 := by
  have hn : p.Nodup := List.Nodup.of_map _ h.nodup
  rw [hn.mem_erase_iff]
  constructor
  · rintro ⟨h1, h2⟩
    exact ⟨h2, fun e' => h1 (List.inj_on_of_nodup_map h.nodup h2 he e')⟩
  · rintro ⟨h1, h2⟩
    exact ⟨fun e' => h2 (by rw [e']), h1⟩

theorem replace_ok {p : Pool} (h : PoolOk p) {e : Nat × Int} (he : e ∈ p) (c : Int) :
    PoolOk (p.erase e ++ [(e.1, c)]) ∧ (p.erase e ++ [(e.1, c)]).length = p.length := by
  have hl : (p.erase e ++ [(e.1, c)]).length = p.length := by
    have h1 := List.length_erase_of_mem he
    have h2 := List.length_pos_of_mem he
    simp; omega
  refine ⟨⟨?_, fun x hx => ?_⟩, hl⟩
  · rw [List.map_append, List.nodup_append]
    refine ⟨h.nodup.sublist ((List.erase_sublist).map _), by simp, fun a ha b hb => ?_⟩
    obtain ⟨x, hx, rfl⟩ := List.mem_map.mp ha
    simp at hb
    subst hb
    exact ((mem_erase_pool h he).mp hx).2
  · rw [hl]
    rcases List.mem_append.mp hx with h1 | h1
    · exact h.bound x ((mem_erase_pool h he).mp h1).1
    · simp at h1; subst h1; exact h.bound e he

/-- what `get_buffer` does -/
theorem getBuffer_ok {p : Pool} (h : PoolOk p) (count : Int) (ex : List Nat) (hex : ∀ b ∈ ex, b < p.length) :
    PoolOk (getBuffer p count ex).2 ∧
    ((getBuffer p count ex).1, count) ∈ (getBuffer p count ex).2 ∧
    (∀ i n, i ≠ (getBuffer p count ex).1 → ((i, n) ∈ (getBuffer p count ex).2 ↔ (i, n) ∈ p)) ∧
    (getBuffer p count ex).1 ∉ ex ∧
    (∀ n, ((getBuffer p count ex).1, n) ∈ p → n = 0) ∧
    p.length ≤ (getBuffer p count ex).2.length ∧
    (getBuffer p count ex).1 < (getBuffer p count ex).2.length := by
  unfold getBuffer
  split
  · rename_i e he
    have hm : e ∈ p := List.mem_reverse.mp (List.mem_of_find?_eq_some he)
    have hp := List.find?_some he
    simp only [decide_eq_true_eq] at hp
    obtain ⟨h1, h2⟩ := replace_ok h hm count
    refine ⟨h1, by simp, fun i n hi => ?_, hp.2, fun n hn => ?_, by rw [h2], ?_⟩
    · rw [List.mem_append, mem_erase_pool h hm]
      simp [hi]
    · have := List.inj_on_of_nodup_map h.nodup hn hm rfl
      rw [← hp.1, ← this]
    · rw [h2]; exact h.bound e hm
  · have hf : ∀ n, (numBuffers p, n) ∉ p := fun n hn => by have := h.bound _ hn; simp [numBuffers] at this
    refine ⟨⟨?_, fun x hx => ?_⟩, by simp, fun i n hi => ?_, fun hx => ?_, fun n hn => absurd hn (hf n), by simp, by simp [numBuffers]⟩
    · rw [List.map_append, List.nodup_append]
      refine ⟨h.nodup, by simp, fun a ha b hb => ?_⟩
      obtain ⟨x, hx, rfl⟩ := List.mem_map.mp ha
      simp at hb; subst hb
      intro e
      have := h.bound x hx
      simp [numBuffers] at e
      omega
    · rcases List.mem_append.mp hx with h1 | h1
      · have := h.bound x h1; simp; omega
      · simp at h1; subst h1; simp [numBuffers]
    · simp; intro e; exact absurd e hi
    · have := hex _ hx; simp [numBuffers] at this

/-- what `retain_buffer` and `release_buffer` do -/
theorem change_ok {p : Pool} (h : PoolOk p) (b : Nat) (n d : Int) (hb : (b, n) ∈ p) :
    ∃ p', change p b d = some p' ∧ PoolOk p' ∧ (b, n + d) ∈ p' ∧ (∀ i m, i ≠ b → ((i, m) ∈ p' ↔ (i, m) ∈ p)) ∧
      p'.length = p.length := by
  unfold change
  split
  · rename_i e he
    have hm : e ∈ p := List.mem_of_find?_eq_some he
    have hp := List.find?_some he
    simp only [beq_iff_eq] at hp
    obtain rfl : e = (b, n) := List.inj_on_of_nodup_map h.nodup hm hb hp
    obtain ⟨h1, h2⟩ := replace_ok h hb (n + d)
    refine ⟨_, rfl, h1, by simp, fun i m hi => ?_, h2⟩
    rw [List.mem_append, mem_erase_pool h hb]
    simp [hi]
  · rename_i hnone
    have := List.find?_eq_none.mp hnone _ hb
    simp at this

/-! ### C32 as a property of the pool alone -/

/-- operations on the pool of one type -/
inductive Op
  | get (count : Nat) (exclude : List Nat)
  | change (b : Nat) (d : Int)

/-- one operation; a change of an unknown buffer raises an exception and leaves the pool alone -/
def Op.run (p : Pool) : Op → Pool
  | .get c ex => (getBuffer p c (ex.filter (· < p.length))).2
  | .change b d => (Signal.change p b d).getD p

theorem Op.run_ok {p : Pool} (h : PoolOk p) (o : Op) : PoolOk (o.run p) ∧ p.length ≤ (o.run p).length := by
  cases o with
  | get c ex =>
    have := getBuffer_ok h c (ex.filter (· < p.length)) (by simp)
    exact ⟨this.1, this.2.2.2.2.2.1⟩
  | change b d =>
    simp only [Op.run, Signal.change]
    cases he : p.find? (fun e => e.1 == b) with
    | some e =>
      obtain ⟨h1, h2⟩ := replace_ok h (List.mem_of_find?_eq_some he) (e.2 + d)
      exact ⟨h1, Nat.le_of_eq h2.symm⟩
    | none => exact ⟨h, Nat.le_refl _⟩

/-- **C32**: after every history of operations, `get_buffer` returns a buffer that nobody retains (its count is 0, or it is
new), that is not excluded, and whose index is below the declared number of buffers, now and later -/
theorem pool_history (ops later : List Op) (count : Nat) (ex : List Nat) (hex : ∀ b ∈ ex, b < (ops.foldl Op.run []).length) :
    let p := ops.foldl Op.run []
    let b := (getBuffer p count ex).1
    let p' := (getBuffer p count ex).2
    (∀ n, (b, n) ∈ p → n = 0) ∧ b ∉ ex ∧ (b, (count : Int)) ∈ p' ∧ b < numBuffers (later.foldl Op.run p') := by
  have hp : ∀ ops : List Op, ∀ p, PoolOk p → PoolOk (ops.foldl Op.run p) ∧ p.length ≤ (ops.foldl Op.run p).length := by
    intro ops
    induction ops with
    | nil => exact fun p h => ⟨h, Nat.le_refl _⟩
    | cons o ops ih =>
      intro p h
      obtain ⟨h1, h2⟩ := Op.run_ok h o
      obtain ⟨h3, h4⟩ := ih _ h1
      exact ⟨h3, by simp only [List.foldl_cons]; omega⟩
  have h0 := (hp ops [] ⟨by simp, by simp⟩).1
  obtain ⟨h1, h2, -, h4, h5, -, h7⟩ := getBuffer_ok h0 count ex hex
  exact ⟨h5, h4, h2, Nat.lt_of_lt_of_le h7 (hp later _ h1).2⟩

/-! ### the assignment -/

/-- the state of the assignment when the connections `todo` have still to be read -/
structure Good (st : St) (todo : List (Nat × Nat)) : Prop where
  pools : ∀ t, PoolOk (st.pool t)
  bound : ∀ p k t i, st.out p k = .tmp t i → i < (st.pool t).length
  live : ∀ p k t i, (p, k) ∈ todo → st.out p k = .tmp t i → ∃ n, (i, n) ∈ st.pool t ∧ (todo.count (p, k) : Int) ≤ n
  sep : ∀ p k p' k' t i, (p, k) ∈ todo → (p', k') ∈ todo → st.out p k = .tmp t i → st.out p' k' = .tmp t i →
    (p, k) = (p', k')

/-- the buffer of an inlet -/
def inletBuf (out : Nat → Nat → Buf) (l : Inlet) : Buf :=
  match l.conns.filter (·.isSignal) with
  | [c] => out c.src c.outlet
  | _ => l.preset

theorem release_ok {st : St} {pk : Nat × Nat} {todo : List (Nat × Nat)} (h : Good st (pk :: todo))
    (hk : ∀ c, st.out pk.1 pk.2 ≠ .output c) :
    ∃ st', release st (st.out pk.1 pk.2) = .ok st' ∧ Good st' todo ∧ st'.out = st.out ∧
      ∀ t, (st'.pool t).length = (st.pool t).length := by
  have weaken : (∀ t i, st.out pk.1 pk.2 ≠ .tmp t i) → Good st todo := by
    intro hn
    refine ⟨h.pools, h.bound, fun p k t i hm ho => ?_, fun p k p' k' t i h1 h2 => h.sep p k p' k' t i (by simp [h1]) (by simp [h2])⟩
    obtain ⟨n, h1, h2⟩ := h.live p k t i (by simp [hm]) ho
    refine ⟨n, h1, ?_⟩
    have : (p, k) ≠ pk := fun e => hn t i (by rw [← e]; exact ho)
    rwa [List.count_cons_of_ne (Ne.symm this)] at h2
  cases ho : st.out pk.1 pk.2 with
  | zero => exact ⟨st, rfl, weaken (by simp [ho]), rfl, fun _ => rfl⟩
  | input c => exact ⟨st, rfl, weaken (by simp [ho]), rfl, fun _ => rfl⟩
  | output c => exact absurd ho (hk c)
  | tmp t b =>
    obtain ⟨n, h1, h2⟩ := h.live pk.1 pk.2 t b (by simp) ho
    obtain ⟨p', e, ok, hin, hsame, hlen⟩ := change_ok (h.pools t) b n (-1) h1
    refine ⟨st.setPool t p', by simp [release, e], ?_, rfl, fun t' => ?_⟩
    · refine ⟨fun t' => ?_, fun p k t' i hi => ?_, fun p k t' i hm hi => ?_, fun p k p'' k' t' i h1 h2 =>
        h.sep p k p'' k' t' i (by simp [h1]) (by simp [h2])⟩
      · by_cases e : t' = t <;> simp [St.setPool, e, ok, h.pools]
      · have := h.bound p k t' i hi
        by_cases e : t' = t
        · subst e; simp [St.setPool, hlen, this]
        · simp [St.setPool, e, this]
      · have hi' : st.out p k = .tmp t' i := hi
        obtain ⟨m, h3, h4⟩ := h.live p k t' i (by simp [hm]) hi'
        by_cases hpk : (p, k) = pk
        · subst hpk
          rw [hi'] at ho
          obtain ⟨rfl, rfl⟩ := Buf.tmp.inj ho
          obtain rfl : m = n := by
            have := List.inj_on_of_nodup_map (h.pools t').nodup h3 h1 rfl
            exact (Prod.mk.inj this).2
          refine ⟨m + -1, by simpa [St.setPool] using hin, ?_⟩
          rw [List.count_cons_self] at h4
          push_cast at h4
          omega
        · rw [List.count_cons_of_ne (Ne.symm hpk)] at h4
          by_cases e : t' = t
          · subst e
            have hib : i ≠ b := by
              rintro rfl
              exact hpk (h.sep p k pk.1 pk.2 t' i (by simp [hm]) (by simp) hi' ho)
            exact ⟨m, by simpa [St.setPool] using (hsame i m hib).mpr h3, h4⟩
          · exact ⟨m, by simpa [St.setPool, e] using h3, h4⟩
    · by_cases e : t' = t
      · subst e; simp [St.setPool, hlen]
      · simp [St.setPool, e]

theorem assignInlets_ok (ls : List Inlet) (st : St) (todo : List (Nat × Nat)) (h : Good st (readsOf ls ++ todo))
    (one : ∀ l ∈ ls, (l.conns.filter (·.isSignal)).length ≤ 1)
    (src : ∀ pk ∈ readsOf ls, ∀ c, st.out pk.1 pk.2 ≠ .output c) :
    ∃ st', assignInlets st ls = .ok (st', ls.map (inletBuf st.out)) ∧ Good st' todo ∧ st'.out = st.out ∧
      ∀ t, (st'.pool t).length = (st.pool t).length := by
  induction ls generalizing st with
  | nil => exact ⟨st, rfl, h, rfl, fun _ => rfl⟩
  | cons l ls ih =>
    have one' : ∀ l ∈ ls, (l.conns.filter (·.isSignal)).length ≤ 1 := fun l hl => one l (by simp [hl])
    have hr : readsOf (l :: ls) = ((l.conns.filter (·.isSignal)).map fun c => (c.src, c.outlet)) ++ readsOf ls := rfl
    cases hf : l.conns.filter (·.isSignal) with
    | nil =>
      rw [hr, hf] at h src
      obtain ⟨st', h1, h2, h3, h4⟩ := ih st h one' src
      exact ⟨st', by simp [assignInlets, assignInlet, hf, h1, inletBuf], h2, h3, h4⟩
    | cons c cs =>
      cases cs with
      | cons c' cs => have := one l (by simp); rw [hf] at this; simp at this
      | nil =>
        rw [hr, hf] at h src
        obtain ⟨st1, h1, h2, h3, h4⟩ := release_ok (pk := (c.src, c.outlet)) (todo := readsOf ls ++ todo) h
          (src (c.src, c.outlet) (by simp))
        obtain ⟨st', h5, h6, h7, h8⟩ := ih st1 h2 one' fun pk hpk => by rw [h3]; exact src pk (by simp [hpk])
        refine ⟨st', ?_, h6, h7.trans h3, fun t => (h8 t).trans (h4 t)⟩
        simp only at h1
        simp [assignInlets, assignInlet, hf, h1, h5, h3, inletBuf]

/-- the state while the outlets of `o` are assigned, `k0` of them done -/
structure Good2 (o : Nat) (st : St) (todo : List (Nat × Nat)) (ex : List (Ty × Nat)) (k0 : Nat) : Prop where
  good : Good st todo
  held : ∀ k < k0, ∀ t i, st.out o k = .tmp t i → (t, i) ∈ ex ∨ ∃ n, 0 < n ∧ (i, n) ∈ st.pool t
  own : ∀ k < k0, ∀ t i p k', st.out o k = .tmp t i → (p, k') ∈ todo → st.out p k' = .tmp t i → (p, k') = (o, k)
  dist : ∀ k < k0, ∀ k' < k0, ∀ t i, st.out o k = .tmp t i → st.out o k' = .tmp t i → k = k'
  exb : ∀ t i, (t, i) ∈ ex → i < (st.pool t).length

theorem Good2.skip {o : Nat} {st : St} {todo : List (Nat × Nat)} {ex : List (Ty × Nat)} {k0 : Nat} (h : Good2 o st todo ex k0)
    (hn : ∀ t i, st.out o k0 ≠ .tmp t i) : Good2 o st todo ex (k0 + 1) := by
  have lt : ∀ k < k0 + 1, ∀ t i, st.out o k = .tmp t i → k < k0 := by
    intro k hk t i ho
    rcases Nat.lt_succ_iff_lt_or_eq.mp hk with h1 | rfl
    · exact h1
    · exact absurd ho (hn t i)
  exact ⟨h.good, fun k hk t i ho => h.held k (lt k hk t i ho) t i ho,
    fun k hk t i p k' ho => h.own k (lt k hk t i ho) t i p k' ho,
    fun k hk k' hk' t i ho ho' => h.dist k (lt k hk t i ho) k' (lt k' hk' t i ho') t i ho ho', h.exb⟩

theorem assignOutlets_ok (o : Nat) (todo : List (Nat × Nat)) (ls : List Outlet) (st : St) (ex : List (Ty × Nat)) (k0 : Nat)
    (h : Good2 o st todo ex k0)
    (fresh : ∀ k, k0 ≤ k → ∀ t i, st.out o k ≠ .tmp t i)
    (cnt : ∀ j l, ls[j]? = some l → todo.count (o, k0 + j) ≤ l.conns) :
    (∃ ex', Good2 o (assignOutlets o st ex k0 ls) todo ex' (k0 + ls.length)) ∧
    (∀ p k, (p ≠ o ∨ k < k0 ∨ k0 + ls.length ≤ k) → (assignOutlets o st ex k0 ls).out p k = st.out p k) ∧
    (∀ t, (st.pool t).length ≤ ((assignOutlets o st ex k0 ls).pool t).length) ∧
    (∀ j l, ls[j]? = some l → if l.ty ≠ none ∧ st.out o (k0 + j) = .zero then
        ∃ t i, (assignOutlets o st ex k0 ls).out o (k0 + j) = .tmp t i
      else (assignOutlets o st ex k0 ls).out o (k0 + j) = st.out o (k0 + j)) := by
  induction ls generalizing st ex k0 with
  | nil => exact ⟨⟨ex, h⟩, fun _ _ _ => rfl, fun _ => Nat.le_refl _, by simp⟩
  | cons l ls ih =>
    have cnt' : ∀ j l', ls[j]? = some l' → todo.count (o, k0 + 1 + j) ≤ l'.conns := fun j l' hj => by
      have := cnt (j + 1) l' (by simpa using hj)
      rwa [show k0 + (j + 1) = k0 + 1 + j by omega] at this
    -- an outlet that gets no buffer
    have skip : ∀ r, (l.ty = none ∨ st.out o k0 ≠ .zero) → r = assignOutlets o st ex (k0 + 1) ls →
        (∃ ex', Good2 o r todo ex' (k0 + (l :: ls).length)) ∧
        (∀ p k, (p ≠ o ∨ k < k0 ∨ k0 + (l :: ls).length ≤ k) → r.out p k = st.out p k) ∧
        (∀ t, (st.pool t).length ≤ (r.pool t).length) ∧
        (∀ j l', (l :: ls)[j]? = some l' → if l'.ty ≠ none ∧ st.out o (k0 + j) = .zero then
            ∃ t i, r.out o (k0 + j) = .tmp t i else r.out o (k0 + j) = st.out o (k0 + j)) := by
      rintro r hs rfl
      obtain ⟨h1, h2, h3, h4⟩ := ih st ex (k0 + 1) (h.skip (fresh k0 (Nat.le_refl _))) (fun k hk => fresh k (by omega)) cnt'
      refine ⟨?_, fun p k hk => h2 p k ?_, h3, fun j l' hj => ?_⟩
      · rw [List.length_cons, show k0 + (ls.length + 1) = k0 + 1 + ls.length by omega]; exact h1
      · simp only [List.length_cons] at hk; omega
      · cases j with
        | zero =>
          simp at hj; subst hj
          rw [if_neg (by rintro ⟨a, b⟩; rcases hs with c | c; exacts [a c, c b])]
          exact h2 o k0 (Or.inr (Or.inl (by omega)))
        | succ j =>
          have := h4 j l' (by simpa using hj)
          rwa [show k0 + 1 + j = k0 + (j + 1) by omega] at this
    rw [assignOutlets]
    split
    · rename_i t hty
      split
      · rename_i hz
        have hexb : ∀ b ∈ (ex.filter (·.1 = t)).map (·.2), b < (st.pool t).length := by
          intro b hb
          obtain ⟨e, he, rfl⟩ := List.mem_map.mp hb
          obtain ⟨h1, h2⟩ := List.mem_filter.mp he
          simp only [decide_eq_true_eq] at h2
          subst h2
          exact h.exb e.1 e.2 h1
        obtain ⟨g1, g2, g3, g4, g5, g6, g7⟩ := getBuffer_ok (h.good.pools t) l.conns _ hexb
        generalize hr : getBuffer (st.pool t) (l.conns : Int) ((ex.filter (·.1 = t)).map (·.2)) = r at *
        obtain ⟨b, p'⟩ := r
        simp only at g1 g2 g3 g4 g5 g6 g7
        -- the new state
        let st1 := (st.setPool t p').setOut o k0 (.tmp t b)
        have out1 : ∀ p k, ¬ (p = o ∧ k = k0) → st1.out p k = st.out p k := fun p k hk => by
          simp [st1, St.setOut, St.setPool, hk]
        have out0 : st1.out o k0 = .tmp t b := by simp [st1, St.setOut]
        have poolt : st1.pool t = p' := by simp [st1, St.setOut, St.setPool]
        have pool' : ∀ t', t' ≠ t → st1.pool t' = st.pool t' := fun t' ht => by simp [st1, St.setOut, St.setPool, ht]
        have len : ∀ t', (st.pool t').length ≤ (st1.pool t').length := fun t' => by
          by_cases e : t' = t
          · subst e; rw [poolt]; exact g6
          · rw [pool' t' e]
        -- a buffer that is still to be read is not the new one
        have ne : ∀ p k t' i, (p, k) ∈ todo → st.out p k = .tmp t' i → ¬ (t' = t ∧ i = b) := by
          rintro p k t' i hm ho ⟨rfl, rfl⟩
          obtain ⟨n, h1, h2⟩ := h.good.live p k t' i hm ho
          have := g5 n h1
          have hpos := List.count_pos_iff.mpr hm
          omega
        have ne' : ∀ k < k0, ∀ t' i, st.out o k = .tmp t' i → ¬ (t' = t ∧ i = b) := by
          rintro k hk t' i ho ⟨rfl, rfl⟩
          rcases h.held k hk t' i ho with h1 | ⟨n, h1, h2⟩
          · exact g4 (List.mem_map.mpr ⟨(t', i), List.mem_filter.mpr ⟨h1, by simp⟩, rfl⟩)
          · have := g5 n h2; omega
        have good1 : Good st1 todo := by
          refine ⟨fun t' => ?_, fun p k t' i ho => ?_, fun p k t' i hm ho => ?_, fun p k p2 k2 t' i hm hm2 ho ho2 => ?_⟩
          · by_cases e : t' = t
            · subst e; rw [poolt]; exact g1
            · rw [pool' t' e]; exact h.good.pools t'
          · by_cases e : p = o ∧ k = k0
            · obtain ⟨rfl, rfl⟩ := e
              rw [out0] at ho
              obtain ⟨rfl, rfl⟩ := Buf.tmp.inj ho
              rw [poolt]; exact g7
            · rw [out1 p k e] at ho
              exact Nat.lt_of_lt_of_le (h.good.bound p k t' i ho) (len t')
          · by_cases e : p = o ∧ k = k0
            · obtain ⟨rfl, rfl⟩ := e
              rw [out0] at ho
              obtain ⟨rfl, rfl⟩ := Buf.tmp.inj ho
              refine ⟨l.conns, by rw [poolt]; exact g2, ?_⟩
              exact_mod_cast cnt 0 l (by simp)
            · rw [out1 p k e] at ho
              obtain ⟨n, h1, h2⟩ := h.good.live p k t' i hm ho
              refine ⟨n, ?_, h2⟩
              by_cases e' : t' = t
              · subst e'
                rw [poolt, g3 i n fun hb => ne p k t' i hm ho ⟨rfl, hb⟩]; exact h1
              · rw [pool' t' e']; exact h1
          · by_cases e : p = o ∧ k = k0
            · by_cases e2 : p2 = o ∧ k2 = k0
              · rw [e.1, e.2, e2.1, e2.2]
              · obtain ⟨rfl, rfl⟩ := e
                rw [out0] at ho
                obtain ⟨rfl, rfl⟩ := Buf.tmp.inj ho
                rw [out1 p2 k2 e2] at ho2
                exact absurd ⟨rfl, rfl⟩ (ne p2 k2 _ _ hm2 ho2)
            · rw [out1 p k e] at ho
              by_cases e2 : p2 = o ∧ k2 = k0
              · obtain ⟨rfl, rfl⟩ := e2
                rw [out0] at ho2
                obtain ⟨rfl, rfl⟩ := Buf.tmp.inj ho2
                exact absurd ⟨rfl, rfl⟩ (ne p k _ _ hm ho)
              · rw [out1 p2 k2 e2] at ho2
                exact h.good.sep p k p2 k2 t' i hm hm2 ho ho2
        have good2 : Good2 o st1 todo (if l.conns = 0 then (t, b) :: ex else ex) (k0 + 1) := by
          refine ⟨good1, fun k hk t' i ho => ?_, fun k hk t' i p k' ho hm ho' => ?_, fun k hk k' hk' t' i ho ho' => ?_,
            fun t' i hm => ?_⟩
          · by_cases e : k = k0
            · subst e
              rw [out0] at ho
              obtain ⟨rfl, rfl⟩ := Buf.tmp.inj ho
              by_cases hc : l.conns = 0
              · left; simp [hc]
              · right; exact ⟨l.conns, by omega, by rw [poolt]; exact g2⟩
            · rw [out1 o k (by simp [e])] at ho
              rcases h.held k (by omega) t' i ho with h1 | ⟨n, h1, h2⟩
              · left; split <;> simp [h1]
              · right
                refine ⟨n, h1, ?_⟩
                by_cases e' : t' = t
                · subst e'
                  rw [poolt, g3 i n fun hb => ne' k (by omega) t' i ho ⟨rfl, hb⟩]; exact h2
                · rw [pool' t' e']; exact h2
          · by_cases e : k = k0
            · subst e
              rw [out0] at ho
              obtain ⟨rfl, rfl⟩ := Buf.tmp.inj ho
              by_cases e2 : p = o ∧ k' = k
              · rw [e2.1, e2.2]
              · rw [out1 p k' e2] at ho'
                exact absurd ⟨rfl, rfl⟩ (ne p k' _ _ hm ho')
            · rw [out1 o k (by simp [e])] at ho
              by_cases e2 : p = o ∧ k' = k0
              · obtain ⟨rfl, rfl⟩ := e2
                rw [out0] at ho'
                obtain ⟨rfl, rfl⟩ := Buf.tmp.inj ho'
                exact absurd ⟨rfl, rfl⟩ (ne' k (by omega) _ _ ho)
              · rw [out1 p k' e2] at ho'
                exact h.own k (by omega) t' i p k' ho hm ho'
          · by_cases e : k = k0
            · by_cases e2 : k' = k0
              · rw [e, e2]
              · subst e
                rw [out0] at ho
                obtain ⟨rfl, rfl⟩ := Buf.tmp.inj ho
                rw [out1 o k' (by simp [e2])] at ho'
                exact absurd ⟨rfl, rfl⟩ (ne' k' (by omega) _ _ ho')
            · rw [out1 o k (by simp [e])] at ho
              by_cases e2 : k' = k0
              · subst e2
                rw [out0] at ho'
                obtain ⟨rfl, rfl⟩ := Buf.tmp.inj ho'
                exact absurd ⟨rfl, rfl⟩ (ne' k (by omega) _ _ ho)
              · rw [out1 o k' (by simp [e2])] at ho'
                exact h.dist k (by omega) k' (by omega) t' i ho ho'
          · split at hm
            · rcases List.mem_cons.mp hm with h1 | h1
              · obtain ⟨rfl, rfl⟩ := Prod.mk.inj h1
                rw [poolt]; exact g7
              · exact Nat.lt_of_lt_of_le (h.exb t' i h1) (len t')
            · exact Nat.lt_of_lt_of_le (h.exb t' i hm) (len t')
        obtain ⟨h1, h2, h3, h4⟩ := ih st1 (if l.conns = 0 then (t, b) :: ex else ex) (k0 + 1) good2
          (fun k hk t' i => by rw [out1 o k (by omega)]; exact fresh k (by omega) t' i) cnt'
        refine ⟨?_, fun p k hk => ?_, fun t' => Nat.le_trans (len t') (h3 t'), fun j l' hj => ?_⟩
        · rw [List.length_cons, show k0 + (ls.length + 1) = k0 + 1 + ls.length by omega]; exact h1
        · simp only [List.length_cons] at hk
          rw [← out1 p k (by omega)]
          exact h2 p k (by omega)
        · cases j with
          | zero =>
            simp at hj; subst hj
            rw [if_pos ⟨by simp [hty], hz⟩]
            exact ⟨t, b, (h2 o k0 (by omega)).trans out0⟩
          | succ j =>
            have := h4 j l' (by simpa using hj)
            rw [show k0 + 1 + j = k0 + (j + 1) by omega, out1 o (k0 + (j + 1)) (by omega)] at this
            exact this
      · rename_i hz
        exact skip _ (Or.inr hz) rfl
    · rename_i hty
      exact skip _ (Or.inl hty) rfl

/-! ### execution -/

theorem write_other (s : Store α) (bs : List Buf) (vs : List α) (b : Buf) (h : b ∉ bs) : write s bs vs b = s b := by
  induction bs generalizing s vs with
  | nil => cases vs <;> rfl
  | cons b' bs ih =>
    cases vs with
    | nil => rfl
    | cons v vs =>
      simp at h
      rw [write, ih _ _ h.2]
      split
      · rfl
      · simp [h.1]

theorem write_zero (s : Store α) (bs : List Buf) (vs : List α) : write s bs vs .zero = s .zero := by
  induction bs generalizing s vs with
  | nil => cases vs <;> rfl
  | cons b' bs ih =>
    cases vs with
    | nil => rfl
    | cons v vs =>
      rw [write, ih]
      split
      · rfl
      · rename_i h; exact if_neg (Ne.symm h)

theorem write_at (s : Store α) (bs : List Buf) (vs : List α) (k : Nat) (b : Buf) (v : α) (hb : bs[k]? = some b)
    (hv : vs[k]? = some v) (hz : b ≠ .zero) (hd : ∀ j, bs[j]? = some b → j = k) : write s bs vs b = v := by
  induction k generalizing s bs vs with
  | zero =>
    cases bs with
    | nil => simp at hb
    | cons b' bs =>
      cases vs with
      | nil => simp at hv
      | cons v' vs =>
        simp at hb hv
        subst hb hv
        rw [write, write_other]
        · simp [hz]
        · intro hm
          obtain ⟨j, hj⟩ := List.mem_iff_getElem?.mp hm
          exact absurd (hd (j + 1) (by simpa using hj)) (by simp)
  | succ k ih =>
    cases bs with
    | nil => simp at hb
    | cons b' bs =>
      cases vs with
      | nil => simp at hv
      | cons v' vs =>
        rw [write]
        refine ih _ _ _ (by simpa using hb) (by simpa using hv) fun j hj => ?_
        have := hd (j + 1) (by simpa using hj)
        omega

theorem before_prefix {p o : Nat} {done rest : List Nat} (hn : (done ++ o :: rest).Nodup)
    (h : Before p o (done ++ o :: rest)) : p ∈ done := by
  obtain ⟨l1, l2, e, hp⟩ := h
  rw [List.nodup_append] at hn
  have ho : o ∉ done := fun hm => hn.2.2 o hm o (by simp) rfl
  have ho2 : o ∉ rest := (List.nodup_cons.mp hn.2.1).1
  rcases List.append_eq_append_iff.mp e with ⟨a, h1, h2⟩ | ⟨a, h1, h2⟩
  · cases a with
    | nil => simp at h1; rw [h1] at hp; exact hp
    | cons x a =>
      simp at h2
      obtain ⟨rfl, h2⟩ := h2
      rw [h2] at ho2
      simp at ho2
  · cases a with
    | nil => simp at h1; rw [h1]; exact hp
    | cons x a =>
      simp at h2
      obtain ⟨rfl, h2⟩ := h2
      rw [h1] at ho
      simp at ho

theorem sublist_flatMap {β γ : Type} (f : β → List γ) {l l' : List β} (h : List.Sublist l l') :
    List.Sublist (l.flatMap f) (l'.flatMap f) := by
  induction h with
  | slnil => exact List.Sublist.refl _
  | cons a _ ih => simp only [List.flatMap_cons]; exact ih.trans (List.sublist_append_right _ _)
  | cons_cons a _ ih => simp only [List.flatMap_cons]; exact List.Sublist.append (List.Sublist.refl _) ih

theorem subperm_flatMap_count {β γ : Type} [BEq γ] (f : β → List γ) {l l' : List β} (h : List.Subperm l l') (x : γ) :
    (l.flatMap f).count x ≤ (l'.flatMap f).count x := by
  obtain ⟨m, h1, h2⟩ := h
  rw [← (h1.flatMap_right f).count_eq x]
  exact (sublist_flatMap f h2).count_le x

/-- the connections that the objects of a list read -/
def Graph.readsAll (g : Graph) (os : List Nat) : List (Nat × Nat) := os.flatMap g.reads

theorem dacChan_dacObj (conns : List Conn) (c : Nat) : dacChan (dacObj conns c) = some c := rfl

theorem dacChan_zero (o : Obj) (h : ∀ l ∈ o.outlets, l.preset = .zero) : dacChan o = none := by
  unfold dacChan
  split
  · rename_i l hl
    rw [h l (by simp [hl])]
  · rfl

/-- the sum of what the output objects of `os` add to channel `c` -/
def outputSum [AddCommMonoid α] (g : Graph) (env : Nat → Nat → α) (os : List Nat) (c : Nat) : α :=
  ((os.filter fun o => dacChan (g.obj o) = some c).map fun o => (((g.obj o).inlets.map (inletVal env)).headD 0)).sum

/-- invariant of execution: `done` has been executed, `todo` has still to be read -/
structure Sim [AddCommMonoid α] (g : Graph) (inp : Nat → α) (env : Nat → Nat → α) (st : St) (s : Store α) (done : List Nat)
    (todo : List (Nat × Nat)) (acc : Nat → α) : Prop where
  good : Good st todo
  holds : ∀ p k t i, (p, k) ∈ todo → st.out p k = .tmp t i → s (.tmp t i) = env p k
  zero : s .zero = 0
  input : ∀ c, s (.input c) = inp c
  output : ∀ c, s (.output c) = acc c
  undone : ∀ p, p ∉ done → ∀ k, st.out p k = g.init.out p k
  isdone : ∀ p ∈ done, ∀ k out, (g.obj p).outlets[k]? = some out → out.ty ≠ none → out.preset = .zero →
    ∃ t i, st.out p k = .tmp t i

section
variable [AddCommMonoid α] (g : Graph) (wf : WF g) (F : Nat → List α → List α) (inp : Nat → α) (env : Nat → Nat → α)
  (flow : Flow g F inp env)
  (hdac : ∀ o ∈ g.ids, (dacChan (g.obj o)).isSome → ∀ x y, F o [x, y] = [x + y])
  (hlen : ∀ o ∈ g.ids, ∀ l, l.length = (g.obj o).inlets.length → (F o l).length = (g.obj o).outlets.length)

include wf flow hdac hlen in
/-- the main induction -/
theorem assignAll_ok (L : List Nat) (hL : L.Nodup) (hids : ∀ o ∈ L, o ∈ g.ids ∧ (g.obj o).signal)
    (hbefore : ∀ o ∈ L, ∀ pk ∈ g.reads o, (g.obj pk.1).signal → Before pk.1 o L)
    (os done : List Nat) (hdone : L = done ++ os) (st : St) (s : Store α) (acc : Nat → α)
    (sim : Sim g inp env st s done (g.readsAll os) acc) :
    ∃ st' ss, assignAll g st os = .ok (st', ss) ∧ ss.map (·.id) = os ∧
      (∀ x ∈ (exec F s ss).2, dacChan (g.obj x.1) = none → x.2 = (g.obj x.1).inlets.map (inletVal env)) ∧
      (∀ c, (exec F s ss).1 (.output c) = acc c + outputSum g env os c) ∧
      (∀ x ∈ ss, ∀ t i, Buf.tmp t i ∈ x.ins ∨ Buf.tmp t i ∈ x.outs → i < numBuffers (st'.pool t)) ∧
      (∀ x ∈ ss, ∀ (k k' : Nat) (t : Ty) (i : Nat), x.outs[k]? = some (Buf.tmp t i) → x.outs[k']? = some (Buf.tmp t i) → k = k') ∧
      (∀ t, (st.pool t).length ≤ (st'.pool t).length) := by
  induction os generalizing done st s acc with
  | nil => exact ⟨st, [], rfl, rfl, by simp [exec], by simp [exec, outputSum, sim.output], by simp, by simp, fun _ => Nat.le_refl _⟩
  | cons o os ih =>
    obtain ⟨ho, hsig⟩ := hids o (by simp [hdone])
    have hod : o ∉ done := by
      rw [hdone, List.nodup_append] at hL
      exact fun hm => hL.2.2 o hm o (by simp) rfl
    -- where the inlets come from
    have hsrc : ∀ l ∈ (g.obj o).inlets, ∀ c ∈ l.conns, c.isSignal →
        (∃ t i, st.out c.src c.outlet = .tmp t i) ∨ (∃ ch, st.out c.src c.outlet = .input ch ∧ env c.src c.outlet = inp ch) := by
      intro l hl c hc hcs
      obtain ⟨hsid, out, h1, h2⟩ := wf.source o ho l hl c hc hcs
      rcases h2 with ⟨h2, h3, h4⟩ | ⟨h2, ch, h3⟩
      · left
        have hr : (c.src, c.outlet) ∈ g.reads o :=
          List.mem_flatMap.mpr ⟨l, hl, List.mem_map.mpr ⟨c, List.mem_filter.mpr ⟨hc, hcs⟩, rfl⟩⟩
        have hb := hbefore o (by simp [hdone]) _ hr h2
        rw [hdone] at hb hL
        exact sim.isdone c.src (before_prefix hL hb) c.outlet out h1 h3 h4
      · right
        refine ⟨ch, ?_, flow.ext _ hsid _ _ _ h1 h3⟩
        have hnd : c.src ∉ done := fun hm => by
          have := (hids c.src (by simp [hdone, hm])).2
          rw [h2] at this
          exact absurd this (by simp)
        rw [sim.undone c.src hnd]
        simp [Graph.init, h1, h3]
    have hnotout : ∀ pk ∈ readsOf (g.obj o).inlets, ∀ c, st.out pk.1 pk.2 ≠ .output c := by
      intro pk hpk c
      obtain ⟨l, hl, hm⟩ := List.mem_flatMap.mp hpk
      obtain ⟨cc, hcc, rfl⟩ := List.mem_map.mp hm
      obtain ⟨h1, h2⟩ := List.mem_filter.mp hcc
      rcases hsrc l hl cc h1 h2 with ⟨t, i, h3⟩ | ⟨ch, h3, -⟩ <;> simp [h3]
    -- inlets
    obtain ⟨st1, e1, good1, out1, len1⟩ := assignInlets_ok (g.obj o).inlets st (g.readsAll os) sim.good
      (wf.one o ho) hnotout
    -- outlets
    have hinit : ∀ k, st1.out o k = g.init.out o k := fun k => by rw [out1]; exact sim.undone o hod k
    have notmp : ∀ k t i, st1.out o k ≠ .tmp t i := by
      intro k t i
      have hi : g.init.out o k = (((g.obj o).outlets[k]?).map (·.preset)).getD .zero := rfl
      rw [hinit, hi]
      cases hk : (g.obj o).outlets[k]? with
      | none => simp
      | some out =>
        simp only [Option.map_some, Option.getD_some]
        rcases wf.kinds o ho hsig with h | ⟨conns, c, h⟩
        · rw [h.2 out (List.mem_of_getElem? hk)]; simp
        · rw [h, dacObj] at hk
          cases k with
          | zero => simp at hk; subst hk; simp
          | succ k => simp at hk
    have g2 : Good2 o st1 (g.readsAll os) [] 0 :=
      ⟨good1, by simp, by simp, by simp, by simp⟩
    have cnt : ∀ j l, (g.obj o).outlets[j]? = some l → (g.readsAll os).count (o, 0 + j) ≤ l.conns := by
      intro j l hj
      rw [Nat.zero_add]
      refine Nat.le_trans ?_ (wf.count o ho j l hj)
      have hsub : (os.Nodup) ∧ ∀ x ∈ os, x ∈ g.ids := by
        rw [hdone, List.nodup_append] at hL
        exact ⟨(List.nodup_cons.mp hL.2.1).2, fun x hx => (hids x (by simp [hdone, hx])).1⟩
      have hsp : List.Subperm os g.ids := hsub.1.subperm hsub.2
      exact subperm_flatMap_count g.reads hsp _
    obtain ⟨⟨ex', g3⟩, frame, len2, newout⟩ :=
      assignOutlets_ok o (g.readsAll os) (g.obj o).outlets st1 [] 0 g2 (fun k _ => notmp k) cnt
    simp only [Nat.zero_add] at g3 frame newout
    generalize hst2 : assignOutlets o st1 [] 0 (g.obj o).outlets = st2 at g3 frame len2 newout
    -- the values read
    have hins : ∀ l ∈ (g.obj o).inlets, l.preset = .zero → s (inletBuf st.out l) = inletVal env l := by
      intro l hl hpre
      unfold inletBuf inletVal
      cases hf : l.conns.filter (·.isSignal) with
      | nil => simp only [hpre]; exact sim.zero
      | cons c cs =>
        cases cs with
        | cons c' cs => have := wf.one o ho l hl; rw [hf] at this; simp at this
        | nil =>
          obtain ⟨h1, h2⟩ := List.mem_filter.mp (show c ∈ l.conns.filter (·.isSignal) by rw [hf]; simp)
          have hm : (c.src, c.outlet) ∈ g.readsAll (o :: os) := by
            refine List.mem_flatMap.mpr ⟨o, by simp, List.mem_flatMap.mpr ⟨l, hl, List.mem_map.mpr ⟨c, ?_, rfl⟩⟩⟩
            rw [hf]; simp
          rcases hsrc l hl c h1 h2 with ⟨t, i, h3⟩ | ⟨ch, h3, h4⟩
          · simp only [h3]; exact sim.holds _ _ t i hm h3
          · simp only [h3, h4]; exact sim.input ch
    have hinsmap : dacChan (g.obj o) = none → ((g.obj o).inlets.map (inletBuf st.out)).map s = (g.obj o).inlets.map (inletVal env) := by
      intro hd
      rw [List.map_map]
      refine List.map_congr_left fun l hl => hins l hl ?_
      rcases wf.kinds o ho hsig with h | ⟨conns, c, h⟩
      · exact h.1 l hl
      · rw [h, dacChan_dacObj] at hd; simp at hd
    -- the outlet buffers
    have houts : ∀ k, k < (g.obj o).outlets.length → (∃ t i, st2.out o k = .tmp t i) ∨
        (st2.out o k = .zero) ∨ (∃ conns c, g.obj o = dacObj conns c ∧ st2.out o k = .output c) := by
      intro k hk
      have hl := List.getElem?_eq_getElem hk
      have hn := newout k _ hl
      split at hn
      · exact Or.inl hn
      · right
        have hi : g.init.out o k = (((g.obj o).outlets[k]?).map (·.preset)).getD .zero := rfl
        rw [hn, hinit, hi, hl]
        simp only [Option.map_some, Option.getD_some]
        rcases wf.kinds o ho hsig with h | ⟨conns, c, h⟩
        · left; exact h.2 _ (List.getElem_mem hk)
        · right
          refine ⟨conns, c, h, ?_⟩
          have hm := List.getElem_mem hk
          generalize (g.obj o).outlets[k] = l at hm
          rw [h, dacObj] at hm
          simp at hm
          rw [hm]
    have hget : ∀ k b, ((List.range (g.obj o).outlets.length).map (st2.out o))[k]? = some b →
        k < (g.obj o).outlets.length ∧ b = st2.out o k := by
      intro k b hk
      rw [List.getElem?_map] at hk
      by_cases hlt : k < (g.obj o).outlets.length
      · rw [List.getElem?_range hlt] at hk
        simp at hk
        exact ⟨hlt, hk.symm⟩
      · rw [List.getElem?_eq_none (by simpa using hlt)] at hk
        simp at hk
    have hmem : ∀ b, b ∈ (List.range (g.obj o).outlets.length).map (st2.out o) →
        ∃ k, k < (g.obj o).outlets.length ∧ b = st2.out o k := by
      intro b hb
      obtain ⟨k, hk⟩ := List.mem_iff_getElem?.mp hb
      exact ⟨k, hget k b hk⟩
    let ins := ((g.obj o).inlets.map (inletBuf st.out)).map s
    let outs := (List.range (g.obj o).outlets.length).map (st2.out o)
    let s2 := write s outs (F o ins)
    let acc2 : Nat → α := fun c => acc c +
      (if dacChan (g.obj o) = some c then ((g.obj o).inlets.map (inletVal env)).headD 0 else 0)
    have out2 : ∀ p k, p ≠ o → st2.out p k = st.out p k := fun p k hp => by rw [frame p k (Or.inl hp), out1]
    have sim2 : Sim g inp env st2 s2 (done ++ [o]) (g.readsAll os) acc2 := by
      refine ⟨g3.good, fun p k t i hm hout => ?_, ?_, fun c => ?_, fun c => ?_, fun p hp k => ?_, fun p hp k out h1 h2 h3 => ?_⟩
      · by_cases hp : p = o
        · subst hp
          have hk : k < (g.obj p).outlets.length := by
            by_contra hk
            rw [frame p k (Or.inr (Or.inr (by omega)))] at hout
            exact notmp k t i hout
          have hd : dacChan (g.obj p) = none := by
            rcases wf.kinds p ho hsig with h | ⟨conns, c, h⟩
            · exact dacChan_zero _ h.2
            · rcases houts k hk with h1 | h1 | ⟨_, _, _, h1⟩
              · have hl := newout k _ (List.getElem?_eq_getElem hk)
                have hm' := List.getElem_mem hk
                have hi : g.init.out p k = (((g.obj p).outlets[k]?).map (·.preset)).getD .zero := rfl
                have : st1.out p k = .output c := by
                  rw [hinit, hi, List.getElem?_eq_getElem hk]
                  generalize (g.obj p).outlets[k] = l at hm'
                  rw [h, dacObj] at hm'
                  simp at hm'
                  simp [hm']
                rw [if_neg (by rw [this]; simp), this, hout] at hl
                simp at hl
              · rw [h1] at hout; simp at hout
              · rw [h1] at hout; simp at hout
          have hlen' : (F p ins).length = (g.obj p).outlets.length := hlen p ho ins (by simp [ins])
          have hv := List.getElem?_eq_getElem (l := F p ins) (i := k) (by omega)
          have he := flow.obj p ho hsig hd k ((F p ins)[k]'(by omega)) (by rw [← hinsmap hd]; exact hv)
          rw [he]
          refine write_at s outs (F p ins) k (.tmp t i) _ ?_ hv (by simp) fun j hj => ?_
          · simp [outs, List.getElem?_range hk, hout]
          · obtain ⟨hj1, hj2⟩ := hget j _ hj
            exact g3.dist j hj1 k hk t i hj2.symm hout
        · have hm' : (p, k) ∈ g.readsAll (o :: os) := List.mem_append_right _ hm
          rw [← sim.holds p k t i hm' (by rw [← out2 p k hp]; exact hout)]
          refine write_other s outs _ _ fun hb => ?_
          obtain ⟨j, hj, hb⟩ := hmem _ hb
          have := g3.own j hj t i p k hb.symm hm hout
          exact hp (Prod.mk.inj this).1
      · exact (write_zero s outs _).trans sim.zero
      · refine (write_other s outs _ _ fun hb => ?_).trans (sim.input c)
        obtain ⟨j, hj, hb⟩ := hmem _ hb
        rcases houts j hj with ⟨t, i, h⟩ | h | ⟨_, c', _, h⟩ <;> rw [h] at hb <;> simp at hb
      · rcases wf.kinds o ho hsig with h | ⟨conns, c', h⟩
        · have hd := dacChan_zero _ h.2
          simp only [acc2, hd, reduceCtorEq, if_false, add_zero]
          refine (write_other s outs _ _ fun hb => ?_).trans (sim.output c)
          obtain ⟨j, hj, hb⟩ := hmem _ hb
          rcases houts j hj with ⟨t, i, h1⟩ | h1 | ⟨_, c', h2, h1⟩
          · rw [h1] at hb; simp at hb
          · rw [h1] at hb; simp at hb
          · rw [h2, dacChan_dacObj] at hd; simp at hd
        · have ho0 : st2.out o 0 = .output c' := by
            have hn := newout 0 ⟨some .f, 0, .output c'⟩ (by rw [h]; rfl)
            have hi : st1.out o 0 = .output c' := by rw [hinit]; simp [Graph.init, h, dacObj]
            rw [if_neg (by rw [hi]; simp), hi] at hn
            exact hn
          have hl0 : (⟨conns, .zero⟩ : Inlet) ∈ (g.obj o).inlets := by rw [h]; simp [dacObj]
          have hx := hins _ hl0 rfl
          have hins' : ins = [inletVal env ⟨conns, .zero⟩, acc c'] := by
            simp only [ins]
            rw [h]
            simp only [dacObj, List.map_cons, List.map_nil]
            rw [hx]
            have : inletBuf st.out ⟨[], .output c'⟩ = .output c' := rfl
            rw [this, sim.output]
          have houts' : outs = [.output c'] := by
            simp only [outs]
            rw [h]
            simp [dacObj, ho0]
          have hF : F o ins = [inletVal env ⟨conns, .zero⟩ + acc c'] := by
            rw [hins']
            exact hdac o ho (by rw [h, dacChan_dacObj]; rfl) _ _
          simp only [s2, acc2]
          rw [houts', hF, h, dacChan_dacObj]
          by_cases e : c = c'
          · subst e
            simp [write, dacObj, add_comm]
          · have e' : ¬ c' = c := fun h => e h.symm
            simp [write, e, e', sim.output]
      · have hp' : p ∉ done ∧ p ≠ o := by simpa using hp
        rw [out2 p k hp'.2]
        exact sim.undone p hp'.1 k
      · by_cases e : p = o
        · subst e
          have hn := newout k out h1
          have hi : st1.out p k = .zero := by
            rw [hinit]
            simp [Graph.init, h1, h3]
          rw [if_pos ⟨h2, hi⟩] at hn
          exact hn
        · rw [out2 p k e]
          have hp' : p ∈ done := by
            rcases List.mem_append.mp hp with h | h
            · exact h
            · simp at h; exact absurd h e
          exact sim.isdone p hp' k out h1 h2 h3
    obtain ⟨st', ss, h1, h2, h3, h4, h5, h6, h7⟩ := ih (done ++ [o]) (by rw [hdone]; simp) st2 s2 acc2 sim2
    have lenle : ∀ t, (st.pool t).length ≤ (st'.pool t).length := fun t => by
      have := len1 t; have := len2 t; have := h7 t; omega
    refine ⟨st', ⟨o, (g.obj o).inlets.map (inletBuf st.out), outs⟩ :: ss, ?_, by simp [h2], fun x hx hd => ?_, fun c => ?_,
      fun x hx t i hm => ?_, fun x hx k k' t i hk hk' => ?_, lenle⟩
    · simp only [assignAll, assignObj, e1, hst2, h1, outs]
    · rcases List.mem_cons.mp hx with rfl | hx
      · exact hinsmap hd
      · exact h3 x hx hd
    · refine (h4 c).trans ?_
      simp only [acc2, outputSum]
      rw [add_assoc]
      congr 1
      by_cases e : dacChan (g.obj o) = some c
      · rw [if_pos e, List.filter_cons_of_pos (by simpa using e)]
        simp
      · rw [if_neg e, List.filter_cons_of_neg (by simpa using e), zero_add]
    · rcases List.mem_cons.mp hx with rfl | hx
      · rcases hm with hm | hm
        · obtain ⟨l, hl, hb⟩ := List.mem_map.mp hm
          have hpre : ∀ t i, l.preset ≠ .tmp t i := by
            intro t i
            rcases wf.kinds o ho hsig with h | ⟨conns, c, h⟩
            · rw [h.1 l hl]; simp
            · rw [h, dacObj] at hl
              simp at hl
              rcases hl with rfl | rfl <;> simp
          unfold inletBuf at hb
          split at hb
          · exact Nat.lt_of_lt_of_le (sim.good.bound _ _ t i hb) (lenle t)
          · exact absurd hb (hpre t i)
        · obtain ⟨j, hj, hb⟩ := hmem _ hm
          exact Nat.lt_of_lt_of_le (g3.good.bound o j t i hb.symm) (h7 t)
      · exact h5 x hx t i hm
    · rcases List.mem_cons.mp hx with rfl | hx
      · obtain ⟨hk1, hk2⟩ := hget k _ hk
        obtain ⟨hk3, hk4⟩ := hget k' _ hk'
        exact g3.dist k hk1 k' hk3 t i hk2.symm hk4.symm
      · exact h6 x hx k k' t i hk hk'

include wf flow hdac hlen in
/-- **C31**: for every graph whose signal connections close no cycle, and whatever the temporary buffers contain at the start
of the block: the assignment succeeds, every object runs once in the right order and is given exactly the signals connected to
its inlets, and every output channel ends with the sum of the signals connected to its `[dac~]`s.  All buffer indices are below
the declared number, and no two outlets of an object share a buffer. -/
theorem compile_correct (hc : Closed g) (hcyc : ∀ o ∈ g.ids, ∀ pk ∈ g.reads o, ¬ Reach g o pk.1) (junk : Ty → Nat → α) :
    ∃ st ss, g.compile = .ok (st, ss) ∧ ss.map (·.id) = g.signalOrder ∧
      (∀ x ∈ (exec F (Store.start inp junk) ss).2, dacChan (g.obj x.1) = none →
        x.2 = (g.obj x.1).inlets.map (inletVal env)) ∧
      (∀ c, (exec F (Store.start inp junk) ss).1 (.output c) = outputSum g env g.signalOrder c) ∧
      (∀ x ∈ ss, ∀ t i, Buf.tmp t i ∈ x.ins ∨ Buf.tmp t i ∈ x.outs → i < numBuffers (st.pool t)) ∧
      (∀ x ∈ ss, ∀ (k k' : Nat) (t : Ty) (i : Nat), x.outs[k]? = some (Buf.tmp t i) → x.outs[k']? = some (Buf.tmp t i) →
        k = k') := by
  obtain ⟨h1, h2, h3⟩ := signal_order_correct g hc
  obtain ⟨m', hv⟩ := order_visited g hc
  have hin : ∀ p k t i, g.init.out p k ≠ .tmp t i := by
    intro p k t i
    simp only [Graph.init]
    cases hk : (g.obj p).outlets[k]? with
    | none => simp
    | some out => simpa using wf.presets p k out hk t i
  have sim : Sim g inp env g.init (Store.start inp junk) [] (g.readsAll g.signalOrder) (fun _ => 0) := by
    refine ⟨⟨fun t => ⟨by simp [Graph.init], by simp [Graph.init]⟩, fun p k t i h => absurd h (hin p k t i),
      fun p k t i _ h => absurd h (hin p k t i), fun p k _ _ t i _ _ h => absurd h (hin p k t i)⟩,
      fun p k t i _ h => absurd h (hin p k t i), rfl, fun _ => rfl, fun _ => rfl, fun _ _ _ => rfl, by simp⟩
  obtain ⟨st, ss, e1, e2, e3, e4, e5, e6, -⟩ := assignAll_ok g wf F inp env flow hdac hlen g.signalOrder h1
    (fun o ho => ⟨hv.ids o (List.mem_filter.mp ho).1, (List.mem_filter.mp ho).2⟩)
    (fun o ho pk hpk hs => by
      have hid := hv.ids o (List.mem_filter.mp ho).1
      obtain ⟨l, hl, hm⟩ := List.mem_flatMap.mp hpk
      obtain ⟨c, hcm, rfl⟩ := List.mem_map.mp hm
      exact h3 o ho _ ⟨l, hl, c, (List.mem_filter.mp hcm).1, rfl⟩ hs (hcyc o hid _ hpk))
    g.signalOrder [] rfl g.init (Store.start inp junk) (fun _ => 0) sim
  exact ⟨st, ss, e1, e2, e3, fun c => by rw [e4, zero_add], e5, e6⟩

end

/-! ### the hypotheses can be met -/

theorem chain_wf : WF chain := by
  refine ⟨by decide, ?_, by decide, ?_, ?_, ?_⟩
  · intro o ho _
    simp [chain] at ho
    rcases ho with rfl | rfl | rfl
    · exact Or.inr ⟨[⟨1, 0, true⟩], 0, rfl⟩
    · exact Or.inl (by decide)
    · exact Or.inl (by decide)
  · intro o ho l hl c hc _
    have hf : Feeds chain c.src o := ⟨l, hl, c, hc, rfl⟩
    have h0 : c.outlet = 0 := by
      simp [chain] at ho
      rcases ho with rfl | rfl | rfl <;> simp [chain] at hl
      · rcases hl with rfl | rfl <;> simp at hc; subst hc; rfl
      · subst hl; simp at hc; subst hc; rfl
    rw [h0]
    rcases chain_feeds hf with ⟨-, h⟩ | ⟨-, h⟩ <;> rw [h]
    · exact ⟨by decide, _, rfl, Or.inl (by decide)⟩
    · exact ⟨by decide, _, rfl, Or.inl (by decide)⟩
  · intro p k out h t i
    have := List.mem_of_getElem? h
    match p, this with
    | 0, h => simp [chain] at h; subst h; simp
    | 1, h => simp [chain] at h; subst h; simp
    | 2, h => simp [chain] at h; subst h; simp
    | n + 3, h => simp [chain] at h
  · intro p hp k out h
    simp [chain] at hp
    rcases hp with rfl | rfl | rfl <;> (cases k with
      | zero => simp [chain] at h; subst h; decide
      | succ k => simp [chain] at h)

/-- the functions of the objects of `chain`: a constant, a product, a sum -/
def chainF : Nat → List Int → List Int
  | 0, _ => [3]
  | 1, [x, y] => [x * y]
  | 2, [x, y] => [x + y]
  | 1, _ => [0]
  | 2, _ => [0]
  | _, _ => []

/-- the signals of `chain` -/
def chainEnv : Nat → Nat → Int
  | 0, _ => 3
  | 1, _ => 9
  | _, _ => 0

example : ∃ st ss, chain.compile = .ok (st, ss) ∧
    (exec chainF (Store.start (fun _ => 0) fun _ _ => 77) ss).1 (.output 0) = 9 := by
  have flow : Flow chain chainF (fun _ => 0) chainEnv := by
    refine ⟨fun p _ k out ch h h' => ?_, fun o ho _ hd k v h => ?_⟩
    · have := List.mem_of_getElem? h
      match p, this with
      | 0, h => simp [chain] at h; subst h; simp at h'
      | 1, h => simp [chain] at h; subst h; simp at h'
      | 2, h => simp [chain] at h; subst h; simp at h'
      | n + 3, h => simp [chain] at h
    · simp [chain] at ho
      rcases ho with rfl | rfl | rfl
      · exact absurd hd (by decide)
      · cases k with
        | zero => simp [chain, chainF, inletVal, chainEnv] at h; rw [← h]; rfl
        | succ k => simp [chain, chainF] at h
      · cases k with
        | zero => simp [chain, chainF] at h; rw [← h]; rfl
        | succ k => simp [chain, chainF] at h
  obtain ⟨st, ss, h1, -, -, h4, -⟩ := compile_correct chain chain_wf chainF (fun _ => 0) chainEnv flow
    (fun o ho h x y => by
      simp [chain] at ho
      rcases ho with rfl | rfl | rfl
      · rfl
      · exact absurd h (by decide)
      · exact absurd h (by decide))
    (fun o ho l hl => by
      simp [chain] at ho
      rcases ho with rfl | rfl | rfl
      · match l, hl with
        | [x, y], _ => rfl
      · match l, hl with
        | [x, y], _ => rfl
      · rfl)
    (fun o _ p h => by rcases chain_feeds h with ⟨rfl, rfl⟩ | ⟨rfl, rfl⟩ <;> decide)
    (fun o ho pk hpk hr => by
      obtain ⟨l, hl, hm⟩ := List.mem_flatMap.mp hpk
      obtain ⟨c, hcm, rfl⟩ := List.mem_map.mp hm
      have hf : Feeds chain c.src o := ⟨l, hl, c, (List.mem_filter.mp hcm).1, rfl⟩
      rcases reflTransGen_iff_eq_or_transGen.mp hr with h | h
      · exact chain_acyclic o (.single (h ▸ hf))
      · exact chain_acyclic o (h.trans (.single hf)))
    fun _ _ => 77
  exact ⟨st, ss, h1, (h4 0).trans (by decide)⟩

end Verif.Signal
