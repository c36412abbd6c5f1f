import Verif.Host
import Verif.Props.Interleave
import Mathlib.Data.List.FinRange
import Mathlib.Tactic.Ring
/-! **C82** hosts and buffers. -/
namespace Verif.Host
open Verif.Simd (V)
open Verif.Interleave (Buf load store loop store_in store_out)

variable {σ α : Type} {N ci co : ℕ}

/-! ### what the patch computes, without buffers -/

/-- the state after `k` vectors of the inputs `x` (by channel and sample) -/
def after (P : Prog σ α N ci co) (t : ℕ) (s : σ) (x : Fin ci → ℕ → α) : ℕ → σ
  | 0 => s
  | k + 1 => (P.vector (t + (k + 1) * N) (after P t s x k) fun i l => x i (k * N + l)).1

/-- sample `u` of output `j` -/
def output [NeZero N] (P : Prog σ α N ci co) (t : ℕ) (s : σ) (x : Fin ci → ℕ → α) (j : Fin co) (u : ℕ) : α :=
  (P.vector (t + (u / N + 1) * N) (after P t s x (u / N)) fun i l => x i (u / N * N + l)).2 j ⟨u % N, Nat.mod_lt _ (NeZero.pos N)⟩

/-- two buffers of `n` samples without a common sample -/
def Apart (n a b : ℕ) : Prop := a + n ≤ b ∨ b + n ≤ a

/-- buffers that hosts use: an input and an output are the same buffer or have nothing in common, and so are two outputs -/
structure Layout (n : ℕ) (ip : Fin ci → ℕ) (op : Fin co → ℕ) : Prop where
  inOut : ∀ i j, ip i = op j ∨ Apart n (ip i) (op j)
  outs : ∀ j k, op j = op k ∨ Apart n (op j) (op k)

/-! ### stores -/

theorem fold_miss (op : Fin co → ℕ) (O : Fin co → V N α) (a : ℕ) (l : List (Fin co)) (h : ∀ j ∈ l, a < op j ∨ op j + N ≤ a) (m : Buf α) :
    l.foldl (fun m j => store m (op j) (O j)) m a = m a := by
  induction l generalizing m with
  | nil => rfl
  | cons j l ih =>
    rw [List.foldl_cons, ih (fun k hk => h k (List.mem_cons_of_mem _ hk)), store_out _ _ _ _ (h j List.mem_cons_self)]

theorem stores_miss (op : Fin co → ℕ) (O : Fin co → V N α) (a : ℕ) (h : ∀ j, a < op j ∨ op j + N ≤ a) (m : Buf α) : stores op O m a = m a :=
  fold_miss op O a _ (fun j _ => h j) m

theorem stores_hit (op : Fin co → ℕ) (O : Fin co → V N α) (j : Fin co) (l : Fin N)
    (h : ∀ k, j < k → op j + l < op k ∨ op k + N ≤ op j + l) (m : Buf α) : stores op O m (op j + l) = O j l := by
  unfold stores
  obtain ⟨l1, l2, e⟩ := List.append_of_mem (List.mem_finRange j)
  have hp := List.pairwise_lt_finRange co
  rw [e, List.pairwise_append] at hp
  have h2 : ∀ k ∈ l2, j < k := (List.pairwise_cons.1 hp.2.1).1
  rw [e, List.foldl_append, List.foldl_cons, fold_miss _ _ _ _ (fun k hk => h k (h2 k hk))]
  exact store_in _ _ _ _ l rfl

/-! ### one call -/

theorem loop_spec [NeZero N] (P : Prog σ α N ci co) {ip : Fin ci → ℕ} {op : Fin co → ℕ} {n : ℕ} (hl : Layout n ip op) (s : σ) (t : ℕ)
    (m : Buf α) (K : ℕ) (hK : K ≤ n / N) :
    let x : Fin ci → ℕ → α := fun i u => m (ip i + u)
    let r := loop (fun k (p : σ × Buf α) =>
      let v := P.vector (t + (k + 1) * N) p.1 fun i => load N p.2 (ip i + k * N)
      (v.1, stores (fun j => op j + k * N) v.2 p.2)) K (s, m)
    r.1 = after P t s x K ∧ (∀ j, (∀ k, j < k → op k ≠ op j) → ∀ u < K * N, r.2 (op j + u) = output P t s x j u) ∧
      ∀ a, (∀ j, a < op j ∨ op j + K * N ≤ a) → r.2 a = m a := by
  induction K with
  | zero => exact ⟨rfl, fun j _ u hu => by simp at hu, fun a _ => rfl⟩
  | succ K ih =>
    intro x
    obtain ⟨h1, h2, h3⟩ := ih (by omega)
    have hN : 0 < N := NeZero.pos N
    have hn : (K + 1) * N ≤ n := le_trans (Nat.mul_le_mul_right N hK) (Nat.div_mul_le_self n N)
    have hn' : K * N + N ≤ n := by linarith [Nat.succ_mul K N]
    simp only [loop]
    set r := loop (fun k (p : σ × Buf α) =>
      let v := P.vector (t + (k + 1) * N) p.1 fun i => load N p.2 (ip i + k * N)
      (v.1, stores (fun j => op j + k * N) v.2 p.2)) K (s, m) with hr
    have hload : (fun i => load N r.2 (ip i + K * N)) = fun i (l : Fin N) => x i (K * N + l) := by
      funext i l
      have hb := l.isLt
      show r.2 (ip i + K * N + l) = m (ip i + (K * N + l))
      rw [Nat.add_assoc]
      refine h3 _ fun j => ?_
      rcases hl.inOut i j with e | e | e <;> omega
    rw [hload, h1]
    refine ⟨rfl, fun j hj u hu => ?_, fun a ha => ?_⟩
    · by_cases hu' : u < K * N
      · rw [stores_miss]
        · exact h2 j hj u hu'
        · intro k
          rcases hl.outs j k with e | e | e <;> omega
      · have e1 : u / N = K := Nat.div_eq_of_lt_le (by omega) (by omega)
        have e2 : u = K * N + u % N := by rw [← e1]; exact (Nat.div_add_mod' u N).symm
        have hm := Nat.mod_lt u hN
        have hh := stores_hit (fun j => op j + K * N) (P.vector (t + (K + 1) * N) (after P t s x K) fun i l => x i (K * N + l)).2 j
          ⟨u % N, hm⟩ (fun k hk => by
            have := hj k hk
            rcases hl.outs j k with e | e | e
            · exact absurd e.symm this
            · left; show op j + K * N + u % N < op k + K * N; omega
            · right; show op k + K * N + N ≤ op j + K * N + u % N; omega) r.2
        simp only at hh
        rw [show op j + u = op j + K * N + u % N by omega, hh]
        simp only [output, e1]
    · have e : (K + 1) * N = K * N + N := Nat.succ_mul K N
      rw [stores_miss]
      · exact h3 a fun j => by have := ha j; omega
      · intro j
        have := ha j
        omega

/-- **C82** one call with `n` frames: whether the outputs are the buffers of the inputs or others, the patch gets the samples that were in
the inputs before the call; of outputs that share a buffer the last one is heard; everything else in memory stays as it is; the clock of the
patch goes on by whole vectors -/
theorem process_spec [NeZero N] (P : Prog σ α N ci co) {ip : Fin ci → ℕ} {op : Fin co → ℕ} {n : ℕ} (hl : Layout n ip op) (s : σ) (t : ℕ)
    (m : Buf α) :
    let x : Fin ci → ℕ → α := fun i u => m (ip i + u)
    let r := process P ip op n s t m
    r.1 = after P t (P.call s) x (n / N) ∧ r.2.1 = t + n / N * N ∧
      (∀ j, (∀ k, j < k → op k ≠ op j) → ∀ u < n / N * N, r.2.2 (op j + u) = output P t (P.call s) x j u) ∧
      ∀ a, (∀ j, a < op j ∨ op j + n / N * N ≤ a) → r.2.2 a = m a := by
  obtain ⟨h1, h2, h3⟩ := loop_spec P hl (P.call s) t m (n / N) le_rfl
  exact ⟨h1, rfl, h2, h3⟩

/-- **C82** processing in place: with the same buffers for inputs and outputs, the outputs are those of the inputs before the call -/
theorem in_place [NeZero N] (P : Prog σ α N ci ci) {p : Fin ci → ℕ} {n : ℕ} (hp : ∀ i j, i ≠ j → Apart n (p i) (p j)) (s : σ) (t : ℕ) (m : Buf α)
    (j : Fin ci) (u : ℕ) (hu : u < n / N * N) :
    (process P p p n s t m).2.2 (p j + u) = output P t (P.call s) (fun i u => m (p i + u)) j u := by
  have h : ∀ i j, p i = p j ∨ Apart n (p i) (p j) := fun i j => by
    by_cases e : i = j
    · left; rw [e]
    · exact .inr (hp i j e)
  have hn : u < n := lt_of_lt_of_le hu (Nat.div_mul_le_self n N)
  exact (process_spec P ⟨h, h⟩ s t m).2.2.1 j (fun k hk e => by rcases hp k j (ne_of_gt hk) with h | h <;> omega) u hu

/-- **C82** it does not matter to the patch where its buffers are -/
theorem place_does_not_matter [NeZero N] (P : Prog σ α N ci co) {ip jp : Fin ci → ℕ} {op qp : Fin co → ℕ} {n : ℕ} (hl : Layout n ip op)
    (hl' : Layout n jp qp) (hd : ∀ j k, j < k → op k ≠ op j) (hd' : ∀ j k, j < k → qp k ≠ qp j) (s : σ) (t : ℕ) (m m' : Buf α)
    (hx : ∀ i u, m (ip i + u) = m' (jp i + u)) :
    (process P ip op n s t m).1 = (process P jp qp n s t m').1 ∧
      ∀ j, ∀ u < n / N * N, (process P ip op n s t m).2.2 (op j + u) = (process P jp qp n s t m').2.2 (qp j + u) := by
  obtain ⟨h1, -, h2, -⟩ := process_spec P hl s t m
  obtain ⟨h1', -, h2', -⟩ := process_spec P hl' s t m'
  have e : (fun i u => m (ip i + u)) = fun (i : Fin ci) u => m' (jp i + u) := by funext i u; exact hx i u
  refine ⟨?_, fun j u hu => ?_⟩
  · rw [h1, h1', e]
  · rw [h2 j (hd j) u hu, h2' j (hd' j) u hu, e]

/-- **C82** (F110) frames that do not make a whole vector are neither read nor written: the outputs keep what was in the buffer, which in
place is the input -/
theorem leftover_untouched [NeZero N] (P : Prog σ α N ci co) {ip : Fin ci → ℕ} {op : Fin co → ℕ} {n : ℕ} (hl : Layout n ip op) (s : σ) (t : ℕ)
    (m : Buf α) (j : Fin co) (u : ℕ) (h1 : n / N * N ≤ u) (h2 : u < n) : (process P ip op n s t m).2.2 (op j + u) = m (op j + u) := by
  refine (process_spec P hl s t m).2.2.2 _ fun k => ?_
  rcases hl.outs j k with e | e | e
  · omega
  · omega
  · have := Nat.div_mul_le_self n N
    omega

/-- **C82** (F110) a call with less than a vector does nothing but the messages of the host -/
theorem short_call [NeZero N] (P : Prog σ α N ci co) (ip : Fin ci → ℕ) (op : Fin co → ℕ) {n : ℕ} (hn : n < N) (s : σ) (t : ℕ) (m : Buf α) :
    process P ip op n s t m = (P.call s, t, m) := by
  simp [process, Nat.div_eq_of_lt hn, loop]

/-! ### many calls -/

theorem after_add (P : Prog σ α N ci co) (t : ℕ) (s : σ) (x : Fin ci → ℕ → α) (k l : ℕ) :
    after P t s x (k + l) = after P (t + k * N) (after P t s x k) (fun i u => x i (k * N + u)) l := by
  induction l with
  | zero => rfl
  | succ l ih =>
    show (P.vector (t + (k + l + 1) * N) (after P t s x (k + l)) _).1 = (P.vector (t + k * N + (l + 1) * N) _ _).1
    rw [ih]
    congr 2
    · ring_nf
    · funext i u
      congr 1
      show (k + l) * N + (u : ℕ) = _
      ring

theorem output_add [NeZero N] (P : Prog σ α N ci co) (t : ℕ) (s : σ) (x : Fin ci → ℕ → α) (k : ℕ) (j : Fin co) (u : ℕ) :
    output P t s x j (k * N + u) = output P (t + k * N) (after P t s x k) (fun i u => x i (k * N + u)) j u := by
  have hN : 0 < N := NeZero.pos N
  have e1 : (k * N + u) / N = k + u / N := by rw [Nat.add_comm, Nat.add_mul_div_right _ _ hN, Nat.add_comm]
  have e2 : (k * N + u) % N = u % N := by rw [Nat.add_comm, Nat.add_mul_mod_self_right]
  unfold output
  simp only [e1, e2, after_add]
  rw [show t + (k + u / N + 1) * N = t + k * N + (u / N + 1) * N by ring]
  have : (fun i (l : Fin N) => x i ((k + u / N) * N + l)) = fun i (l : Fin N) => x i (k * N + (u / N * N + l)) := by
    funext i l; congr 1; ring
  rw [this]

/-- the host calls the patch with blocks of the given sizes, the input samples `x` one after the other, and takes the samples `y` from the
outputs.  `T` is the time of the host, `t` that of the patch; the buffers may be others at every call -/
inductive Session (P : Prog σ α N ci co) (x : Fin ci → ℕ → α) (y : Fin co → ℕ → α) : ℕ → σ → ℕ → List ℕ → ℕ → σ → ℕ → Prop
  | nil (T : ℕ) (s : σ) (t : ℕ) : Session P x y T s t [] T s t
  | call {T n : ℕ} {s : σ} {t : ℕ} {ns : List ℕ} {T' : ℕ} {s' : σ} {t' : ℕ} (ip : Fin ci → ℕ) (op : Fin co → ℕ) (m : Buf α)
      (hl : Layout n ip op) (hd : ∀ j k, j < k → op k ≠ op j) (hx : ∀ i, ∀ u < n, m (ip i + u) = x i (T + u))
      (hy : ∀ j, ∀ u < n, y j (T + u) = (process P ip op n s t m).2.2 (op j + u))
      (rest : Session P x y (T + n) (process P ip op n s t m).1 (process P ip op n s t m).2.1 ns T' s' t') :
      Session P x y T s t (n :: ns) T' s' t'

theorem after_congr (P : Prog σ α N ci co) (t : ℕ) (s : σ) (x x' : Fin ci → ℕ → α) (k : ℕ) (h : ∀ i, ∀ u < k * N, x i u = x' i u) :
    after P t s x k = after P t s x' k := by
  induction k with
  | zero => rfl
  | succ k ih =>
    have e : (k + 1) * N = k * N + N := Nat.succ_mul k N
    have e2 : (fun i (l : Fin N) => x i (k * N + l)) = fun i (l : Fin N) => x' i (k * N + l) := by
      funext i l; have := l.isLt; exact h i _ (by omega)
    show (P.vector _ (after P t s x k) _).1 = (P.vector _ (after P t s x' k) _).1
    rw [ih fun i u hu => h i u (by omega), e2]

theorem output_congr [NeZero N] (P : Prog σ α N ci co) (t : ℕ) (s : σ) (x x' : Fin ci → ℕ → α) (j : Fin co) (u k : ℕ) (hu : u < k * N)
    (h : ∀ i, ∀ u < k * N, x i u = x' i u) : output P t s x j u = output P t s x' j u := by
  have hN : 0 < N := NeZero.pos N
  have hk : (u / N + 1) * N ≤ k * N := Nat.mul_le_mul_right N (Nat.div_lt_of_lt_mul (by rw [Nat.mul_comm]; exact hu))
  have e : (u / N + 1) * N = u / N * N + N := Nat.succ_mul _ N
  have e2 : (fun i (l : Fin N) => x i (u / N * N + l)) = fun i (l : Fin N) => x' i (u / N * N + l) := by
    funext i l; have := l.isLt; exact h i _ (by omega)
  unfold output
  rw [after_congr P t s x x' _ fun i v hv => h i v (by omega), e2]

/-- **C82** the block size of the host does not matter: if all blocks are whole vectors and nothing happens between them (no message from
the host, no `[bang~]`), the outputs are the same samples in every division into blocks -/
theorem block_size_independent [NeZero N] (P : Prog σ α N ci co) (hc : ∀ s, P.call s = s) {x : Fin ci → ℕ → α} {y : Fin co → ℕ → α} {T T' : ℕ}
    {s s' : σ} {t t' : ℕ} {ns : List ℕ} (h : Session P x y T s t ns T' s' t') (hn : ∀ n ∈ ns, N ∣ n) :
    T' = T + ns.sum ∧ t' = t + ns.sum ∧ s' = after P t s (fun i u => x i (T + u)) (ns.sum / N) ∧
      ∀ j, ∀ u < ns.sum, y j (T + u) = output P t s (fun i u => x i (T + u)) j u := by
  induction h with
  | nil T s t => simp [after]
  | @call T n s t ns T' s' t' ip op m hl hd hx hy rest ih =>
    obtain ⟨k, rfl⟩ := hn n List.mem_cons_self
    obtain ⟨i1, i2, i3, i4⟩ := ih fun n h => hn n (List.mem_cons_of_mem _ h)
    have hN : 0 < N := NeZero.pos N
    have ek : N * k / N = k := Nat.mul_div_cancel_left k hN
    obtain ⟨p1, p2, p3, -⟩ := process_spec P hl s t m
    rw [ek, hc] at p1
    rw [ek] at p2
    rw [ek, hc] at p3
    have hxx : ∀ i, ∀ u < k * N, (fun (i : Fin ci) u => m (ip i + u)) i u = (fun (i : Fin ci) u => x i (T + u)) i u :=
      fun i u hu => hx i u (by rw [Nat.mul_comm]; exact hu)
    rw [after_congr P t s _ _ k hxx] at p1
    have hsum : (N * k :: ns).sum = k * N + ns.sum := by rw [List.sum_cons, Nat.mul_comm]
    have hxs : (fun (i : Fin ci) u => x i (T + N * k + u)) = fun i u => x i (T + (k * N + u)) := by
      funext i u; congr 1; ring
    rw [hxs, p1, p2] at i3 i4
    rw [p2] at i2
    refine ⟨by rw [i1, hsum]; ring, by rw [i2, hsum]; ring, ?_, fun j u hu => ?_⟩
    · rw [i3, hsum, show (k * N + ns.sum) / N = k + ns.sum / N by rw [Nat.add_comm, Nat.add_mul_div_right _ _ hN, Nat.add_comm], after_add]
    · rw [hsum] at hu
      by_cases h : u < k * N
      · rw [hy j u (by rw [Nat.mul_comm]; exact h), p3 j (hd j) u h]
        exact output_congr P t s _ _ j u k h hxx
      · obtain ⟨w, rfl⟩ : ∃ w, u = k * N + w := ⟨u - k * N, by omega⟩
        rw [output_add, ← i4 j w (by omega)]
        congr 1
        ring

/-- **C82** (F110) otherwise the patch's clock is late: it loses the rest of every block -/
theorem clock_late [NeZero N] (P : Prog σ α N ci co) {x : Fin ci → ℕ → α} {y : Fin co → ℕ → α} {T T' : ℕ}
    {s s' : σ} {t t' : ℕ} {ns : List ℕ} (h : Session P x y T s t ns T' s' t') :
    T' = T + ns.sum ∧ t' + (ns.map (· % N)).sum = t + ns.sum := by
  induction h with
  | nil T s t => simp
  | @call T n s t ns T' s' t' ip op m hl hd hx hy rest ih =>
    obtain ⟨i1, i2⟩ := ih
    rw [(process_spec P hl s t m).2.1] at i2
    have := Nat.div_add_mod' n N
    simp only [List.sum_cons, List.map_cons]
    constructor <;> omega

theorem Session.congr {P : Prog σ α N ci co} {x : Fin ci → ℕ → α} {y y' : Fin co → ℕ → α} {T T' : ℕ} {s s' : σ} {t t' : ℕ} {ns : List ℕ}
    (h : Session P x y T s t ns T' s' t') (he : ∀ j u, T ≤ u → y' j u = y j u) : Session P x y' T s t ns T' s' t' := by
  induction h with
  | nil T s t => exact .nil T s t
  | call ip op m hl hd hx hy rest ih =>
    exact .call ip op m hl hd hx (fun j u hu => by rw [he j _ (by omega)]; exact hy j u hu) (ih fun j u hu => he j u (by omega))

theorem block_apart (n i j : ℕ) (h : i ≠ j) : Apart n (i * n) (j * n) := by
  rcases Nat.lt_or_gt_of_ne h with h | h
  · left; have := Nat.mul_le_mul_right n h; rw [Nat.succ_mul] at this; exact this
  · right; have := Nat.mul_le_mul_right n h; rw [Nat.succ_mul] at this; exact this

/-- sessions exist: every patch can be called in place with every input and all block sizes above 0 -/
theorem session_exists [Inhabited α] (P : Prog σ α N ci ci) (x : Fin ci → ℕ → α) (ns : List ℕ) (hn : ∀ n ∈ ns, 0 < n) (T : ℕ) (s : σ) (t : ℕ) :
    ∃ y T' s' t', Session P x y T s t ns T' s' t' := by
  induction ns generalizing T s t with
  | nil => exact ⟨fun _ _ => default, T, s, t, .nil T s t⟩
  | cons n ns ih =>
    have h0 := hn n List.mem_cons_self
    let p : Fin ci → ℕ := fun i => i * n
    let m : Buf α := fun a => if h : a / n < ci then x ⟨a / n, h⟩ (T + a % n) else default
    have ha : ∀ i j : Fin ci, i ≠ j → Apart n (p i) (p j) := fun i j hij => block_apart n i j fun e => hij (Fin.ext e)
    have hl : ∀ i j : Fin ci, p i = p j ∨ Apart n (p i) (p j) := fun i j => by
      by_cases e : i = j
      · left; rw [e]
      · exact .inr (ha i j e)
    obtain ⟨y, T', s', t', h⟩ := ih (fun n h => hn n (List.mem_cons_of_mem _ h)) (T + n) (process P p p n s t m).1 (process P p p n s t m).2.1
    refine ⟨fun j u => if u < T + n then (process P p p n s t m).2.2 (p j + (u - T)) else y j u, T', s', t', .call p p m ⟨hl, hl⟩ ?_ ?_ ?_ ?_⟩
    · intro j k hjk e
      rcases ha k j (ne_of_gt hjk) with h | h <;> omega
    · intro i u hu
      have e1 : (i * n + u) / n = i := by rw [Nat.add_comm, Nat.add_mul_div_right _ _ h0, Nat.div_eq_of_lt hu, Nat.zero_add]
      have e2 : (i * n + u) % n = u := by rw [Nat.add_comm, Nat.add_mul_mod_self_right, Nat.mod_eq_of_lt hu]
      show (if h : (i * n + u) / n < ci then x ⟨(i * n + u) / n, h⟩ (T + (i * n + u) % n) else default) = _
      rw [dif_pos (by rw [e1]; exact i.isLt)]
      simp only [e1, e2]
    · intro j u hu
      rw [if_pos (by omega), show T + u - T = u by omega]
    · exact h.congr fun j u hu => by rw [if_neg (by omega)]

/-! ### hosts -/

/-- **C82** the Pd external: input `i` is the signal of inlet `i`, output `j` that of outlet `j` (behind the signals of the inlets, of which
there is at least one), the number of frames is the block size, and the next object of the chain begins behind the words -/
theorem pd_wiring {ω : Type} (ci co : ℕ) (f x : ω) (sp : ℕ → ω) (n : ω) :
    let ws := f :: pdWords ci co x sp n
    let p := pdPerform ci co fun k => ws[k]?
    p.1 = some x ∧ (∀ i < ci, p.2.1 i = some (sp i)) ∧ (∀ j < co, p.2.2.1 j = some (sp (max ci 1 + j))) ∧ p.2.2.2.1 = some n ∧
      p.2.2.2.2 = ws.length := by
  intro ws p
  refine ⟨?_, fun i hi => ?_, fun j hj => ?_, ?_, ?_⟩
  · simp [p, pdPerform, ws, pdWords]
  · simp only [p, pdPerform, ws, pdWords]
    simp [List.getElem?_append, hi]
  · simp only [p, pdPerform, ws, pdWords]
    rw [show ci + j + 2 = (ci + j + 1) + 1 from rfl, List.getElem?_cons_succ, List.singleton_append, List.cons_append, List.cons_append,
      List.getElem?_cons_succ]
    simp [List.getElem?_append, hj]
  · simp only [p, pdPerform, ws, pdWords]
    rw [show ci + co + 2 = (ci + co + 1) + 1 from rfl, List.getElem?_cons_succ, List.singleton_append, List.cons_append, List.cons_append,
      List.getElem?_cons_succ]
    simp
  · simp [p, pdPerform, ws, pdWords]
    omega

/-- **C82** Wwise, a stereo patch on a mono bus: the left output is lost, the bus carries the right one (F111) -/
theorem wwise_mono_right [NeZero N] (P : Prog σ α N ci 2) (b n : ℕ) (s : σ) (t : ℕ) (m : Buf α) (u : ℕ) (hu : u < n / N * N) :
    (wwiseExecute P 1 b n s t m).2.2 (b + u) = output P t (P.call s) (fun _ u => m (b + u)) 1 u := by
  rw [wwiseExecute, if_pos ⟨rfl, .inr rfl⟩]
  exact (process_spec P ⟨fun _ _ => .inl rfl, fun _ _ => .inl rfl⟩ s t m).2.2.1 1 (fun k hk => absurd hk (by omega)) u hu

/-- **C82** Wwise, a patch with as many inputs as outputs as the bus has channels: every channel is processed in place -/
theorem wwise_bus [NeZero N] (P : Prog σ α N ci ci) (b n : ℕ) (s : σ) (t : ℕ) (m : Buf α) (j : Fin ci) (u : ℕ)
    (hu : u < n / N * N) :
    (wwiseExecute P ci b n s t m).2.2 (b + j * n + u) = output P t (P.call s) (fun i u => m (b + i * n + u)) j u := by
  rw [wwiseExecute, if_neg (by omega), processInline]
  refine in_place P (p := fun i => b + i * n) (fun i j hij => ?_) s t m j u hu
  have hv : i.val ≠ j.val := fun e => hij (Fin.ext e)
  rcases Nat.lt_or_gt_of_ne hv with h | h
  · left
    have := Nat.mul_le_mul_right n (show i.val + 1 ≤ j.val from h)
    rw [Nat.succ_mul] at this
    show b + i * n + n ≤ b + j * n
    omega
  · right
    have := Nat.mul_le_mul_right n (show j.val + 1 ≤ i.val from h)
    rw [Nat.succ_mul] at this
    show b + j * n + n ≤ b + i * n
    omega

/-- **C82** OWL: a stereo patch is processed in place -/
theorem owl_stereo [NeZero N] (P : Prog σ α N 2 2) {l r n : ℕ} (h : Apart n l r) (s : σ) (t : ℕ) (m : Buf α) (u : ℕ) (hu : u < n / N * N) :
    let x : Fin 2 → ℕ → α := ![fun u => m (l + u), fun u => m (r + u)]
    (owlProcess P l r n s t m).2.2 (l + u) = output P t (P.call s) x 0 u ∧ (owlProcess P l r n s t m).2.2 (r + u) = output P t (P.call s) x 1 u := by
  intro x
  have hp : ∀ i j : Fin 2, i ≠ j → Apart n (if i.val = 0 then l else r) (if j.val = 0 then l else r) := by
    unfold Apart at h ⊢
    intro i j hij
    have hi := i.isLt
    have hj := j.isLt
    have hv : i.val ≠ j.val := fun e => hij (Fin.ext e)
    split <;> split <;> omega
  have hx : (fun (i : Fin 2) u => m ((if i.val = 0 then l else r) + u)) = x := by
    funext i u
    refine Fin.cases rfl (fun i => ?_) i
    rw [Fin.eq_zero i]
    rfl
  have a := in_place P (p := fun i : Fin 2 => if i.val = 0 then l else r) hp s t m 0 u hu
  have b := in_place P (p := fun i : Fin 2 => if i.val = 0 then l else r) hp s t m 1 u hu
  rw [hx] at a b
  exact ⟨a, b⟩

/-! ### the worklet -/

theorem webFill_at (ci : ℕ) (b : Buf α) (c : ℕ → Option (Fin 128 → α)) (i : ℕ) (hi : i < ci) (u : Fin 128) :
    webFill ci b (.chans c) (i * 128 + u) = match c i with | some x => x u | none => b (i * 128 + u) := by
  have hu := u.isLt
  unfold webFill
  induction ci with
  | zero => omega
  | succ k ih =>
    by_cases e : i = k
    · subst e
      have miss : ∀ K, K ≤ i → loop (fun i b => match c i with
          | some x => fun a => if h : i * 128 ≤ a ∧ a < i * 128 + 128 then x ⟨a - i * 128, by omega⟩ else b a
          | none => b) K b (i * 128 + u) = b (i * 128 + u) := by
        intro K hK
        induction K with
        | zero => rfl
        | succ K ihK =>
          simp only [loop]
          cases c K with
          | none => exact ihK (by omega)
          | some x => simp only; rw [dif_neg (by omega)]; exact ihK (by omega)
      simp only [loop]
      cases hc : c i with
      | none => exact miss i le_rfl
      | some x =>
        simp only
        rw [dif_pos ⟨by omega, by omega⟩]
        congr 1
        apply Fin.ext
        simp
    · simp only [loop]
      cases hc : c k with
      | none => exact ih (by omega)
      | some x => simp only; rw [dif_neg (by omega)]; exact ih (by omega)

/-- the samples of channel `i`, if the browser passes them -/
def WebIn.at? (i : ℕ) : WebIn α → Option (Fin 128 → α)
  | .none => Option.none
  | .chans c => c i

theorem webFill_spec (ci : ℕ) (b : Buf α) (w : WebIn α) (i : ℕ) (hi : i < ci) (u : Fin 128) :
    webFill ci b w (i * 128 + u) = match w.at? i with | some x => x u | none => b (i * 128 + u) := by
  cases w with
  | none => rfl
  | chans c => exact webFill_at ci b c i hi u

/-- **C82** the JS worklet: a channel that is connected is passed to the patch -/
theorem web_connected (ci : ℕ) (b : Buf α) (ins : ℕ → WebIn α) (i : ℕ) (hi : i < ci) (k : ℕ) (x : Fin 128 → α) (h : (ins k).at? i = some x)
    (u : Fin 128) : webInputs ci b ins k (i * 128 + u) = x u := by
  cases k <;> rw [webInputs, webFill_spec ci _ _ i hi u, h]

/-- **C82** (F112) a channel that is not connected any more is not silent: the patch gets the last block that came, again and again -/
theorem web_stuck (ci : ℕ) (b : Buf α) (ins : ℕ → WebIn α) (i : ℕ) (hi : i < ci) (k n : ℕ) (x : Fin 128 → α) (h : (ins k).at? i = some x)
    (hn : ∀ l, k < l → l ≤ k + n → (ins l).at? i = none) (u : Fin 128) : webInputs ci b ins (k + n) (i * 128 + u) = x u := by
  induction n with
  | zero => exact web_connected ci b ins i hi k x h u
  | succ n ih =>
    rw [← Nat.add_assoc, webInputs, webFill_spec ci _ _ i hi u, hn _ (by omega) (by omega)]
    exact ih fun l h1 h2 => hn l h1 (by omega)

/-- **C82** (F112) a channel that never was connected carries what `malloc` left in the buffer -/
theorem web_never (ci : ℕ) (b : Buf α) (ins : ℕ → WebIn α) (i : ℕ) (hi : i < ci) (k : ℕ) (hn : ∀ l ≤ k, (ins l).at? i = none) (u : Fin 128) :
    webInputs ci b ins k (i * 128 + u) = b (i * 128 + u) := by
  induction k with
  | zero => rw [webInputs, webFill_spec ci _ _ i hi u, hn 0 le_rfl]
  | succ k ih => rw [webInputs, webFill_spec ci _ _ i hi u, hn _ le_rfl]; exact ih fun l h => hn l (by omega)

end Verif.Host
