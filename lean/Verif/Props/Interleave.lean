import Verif.Interleave
import Mathlib.Data.Fintype.Basic
import Mathlib.Tactic.FinCases
import Mathlib.Tactic.Linarith
/-!
# C27: interleaved processing

Specification: with `P` the signal code, the interleaved call on `inp` must leave in the output buffer, at `c + co * j`, sample
`j` of channel `c` of what `P` computes from the planar input whose sample `j` of channel `c` is `inp[c + ci * j]`, and must
leave the rest of the buffer alone.
-/
namespace Verif.Interleave
open Verif.Simd

variable {α : Type}

/-- the specification: the planar input that an interleaved buffer stands for -/
def planar (ci : Nat) (inp : Buf α) : Nat → Buf α := fun c j => inp (c + ci * j)

/-- `P` does not look at anything but the first `n4` samples of the first `ci` channels -/
def Local (P : Process α) (ci : Nat) : Prop :=
  ∀ n4 x y, (∀ c j, c < ci → j < n4 → x c j = y c j) → P n4 x = P n4 y

/-! ### loops -/

theorem loop_same {β : Type} (body : Nat → (Nat → β) → (Nat → β)) (K : Nat) (m : Nat → β) (i : Nat)
    (h : ∀ k, k < K → ∀ m, body k m i = m i) : loop body K m i = m i := by
  induction K with
  | zero => rfl
  | succ K ih => rw [loop, h K (by omega), ih fun k hk => h k (by omega)]

theorem loop_hit {β : Type} (body : Nat → (Nat → β) → (Nat → β)) (K : Nat) (m : Nat → β) (i k : Nat) (v : β) (hk : k < K)
    (hit : ∀ m, body k m i = v) (miss : ∀ l, k < l → l < K → ∀ m, body l m i = m i) : loop body K m i = v := by
  induction K with
  | zero => omega
  | succ K ih =>
    by_cases e : k = K
    · subst e; exact hit _
    · rw [loop, miss K (by omega) (by omega), ih (by omega) fun l h1 h2 => miss l h1 (by omega)]

theorem store_in {N : Nat} (m : Buf α) (a : Nat) (v : V N α) (i : Nat) (j : Fin N) (h : i = a + j) : store m a v i = v j := by
  subst h
  have hj := j.isLt
  rw [store, dif_pos ⟨by omega, by omega⟩]
  congr 1
  apply Fin.ext
  simp

theorem store_out {N : Nat} (m : Buf α) (a : Nat) (v : V N α) (i : Nat) (h : i < a ∨ a + N ≤ i) : store m a v i = m i := by
  rw [store, dif_neg (by omega)]

theorem put_same (m : Buf α) (a : Nat) (v : α) : put m a v a = v := by simp [put]
theorem put_other (m : Buf α) (a : Nat) (v : α) (i : Nat) (h : i ≠ a) : put m a v i = m i := by simp [put, h]

/-- `c * n + j` determines `c` and `j < n` -/
theorem idx_inj {n c j c' j' : Nat} (hj : j < n) (hj' : j' < n) (h : c * n + j = c' * n + j') : c = c' ∧ j = j' := by
  have h1 : (c * n + j) / n = (c' * n + j') / n := by rw [h]
  have h2 : (c * n + j) % n = (c' * n + j') % n := by rw [h]
  rw [Nat.add_comm, Nat.add_mul_div_right _ _ (by omega), Nat.add_comm (c' * n), Nat.add_mul_div_right _ _ (by omega),
    Nat.div_eq_of_lt hj, Nat.div_eq_of_lt hj'] at h1
  rw [Nat.add_comm, Nat.add_mul_mod_self_right, Nat.add_comm (c' * n), Nat.add_mul_mod_self_right, Nat.mod_eq_of_lt hj,
    Nat.mod_eq_of_lt hj'] at h2
  omega

theorem idx_inj' {n c j c' j' : Nat} (hc : c < n) (hc' : c' < n) (h : c + n * j = c' + n * j') : c = c' ∧ j = j' := by
  have := idx_inj (c := j) (c' := j') hc hc' (by rw [Nat.mul_comm j, Nat.mul_comm j']; omega)
  exact ⟨this.2, this.1⟩

/-- two nested loops that write every place at most once -/
theorem nested (A B : Nat) (pos : Nat → Nat → Nat) (val : Nat → Nat → α) (m : Buf α)
    (inj : ∀ a b a' b', a < A → b < B → a' < A → b' < B → pos a b = pos a' b' → a = a' ∧ b = b') :
    (∀ a b, a < A → b < B → loop (fun a m => loop (fun b m => put m (pos a b) (val a b)) B m) A m (pos a b) = val a b) ∧
    (∀ i, (∀ a b, a < A → b < B → i ≠ pos a b) →
      loop (fun a m => loop (fun b m => put m (pos a b) (val a b)) B m) A m i = m i) := by
  constructor
  · intro a b ha hb
    refine loop_hit _ A m _ a _ ha (fun m => ?_) fun a' h1 h2 m => ?_
    · refine loop_hit _ B m _ b _ hb (fun m => put_same _ _ _) fun b' h1 h2 m => put_other _ _ _ _ fun e => ?_
      have := (inj a b a b' ha hb ha h2 e).2
      omega
    · refine loop_same _ B m _ fun b' hb' m => put_other _ _ _ _ fun e => ?_
      have := (inj a b a' b' ha hb h2 hb' e).1
      omega
  · intro i hi
    exact loop_same _ A m _ fun a ha m => loop_same _ B m _ fun b hb m => put_other _ _ _ _ (hi a b ha hb)

/-! ### input -/

theorem splitScalar_is (ch : Nat) (inp : Buf α) (n4 : Nat) (b : Buf α) (c j : Nat) (hc : c < ch) (hj : j < n4) :
    splitScalar ch inp n4 b (c * n4 + j) = inp (c + ch * j) :=
  (nested n4 ch (fun j i => i * n4 + j) (fun j i => inp (i + ch * j)) b
    (fun a b a' b' ha _ ha' _ e => ⟨(idx_inj ha ha' e).2, (idx_inj ha ha' e).1⟩)).1 j c hj hc

theorem splitSse_is (inp : Buf α) (n4 : Nat) (h4 : n4 % 4 = 0) (b : Buf α) (c j : Nat) (hc : c < 2) (hj : j < n4) :
    splitSse inp n4 b (c * n4 + j) = inp (c + 2 * j) := by
  rw [splitSse]
  obtain ⟨k, l, rfl⟩ : ∃ k, ∃ l : Fin 4, j = 4 * k + l := ⟨j / 4, ⟨j % 4, by omega⟩, by simp; omega⟩
  have hl := l.isLt
  have hk : k < (n4 + 3) / 4 := by omega
  obtain rfl | rfl : c = 0 ∨ c = 1 := by omega
  · refine loop_hit _ _ _ _ k _ hk (fun m => ?_) fun k' h1 h2 m => ?_
    · rw [store_out _ _ _ _ (by omega), store_in _ _ _ _ l (by omega)]
      fin_cases l <;> (simp only [shuffle, load]; simp; congr 1; omega)
    · rw [store_out _ _ _ _ (by omega), store_out _ _ _ _ (by omega)]
  · refine loop_hit _ _ _ _ k _ hk (fun m => ?_) fun k' h1 h2 m => ?_
    · rw [store_in _ _ _ _ l (by omega)]
      fin_cases l <;> (simp only [shuffle, load]; simp; congr 1; omega)
    · rw [store_out _ _ _ _ (by omega), store_out _ _ _ _ (by omega)]

theorem splitNeon_is (inp : Buf α) (n4 : Nat) (h4 : n4 % 4 = 0) (b : Buf α) (c j : Nat) (hc : c < 2) (hj : j < n4) :
    splitNeon inp n4 b (c * n4 + j) = inp (c + 2 * j) := by
  rw [splitNeon]
  obtain ⟨k, l, rfl⟩ : ∃ k, ∃ l : Fin 4, j = 4 * k + l := ⟨j / 4, ⟨j % 4, by omega⟩, by simp; omega⟩
  have hl := l.isLt
  have hk : k < (n4 + 3) / 4 := by omega
  obtain rfl | rfl : c = 0 ∨ c = 1 := by omega
  · refine loop_hit _ _ _ _ k _ hk (fun m => ?_) fun k' h1 h2 m => ?_
    · rw [store_out _ _ _ _ (by omega), store_in _ _ _ _ l (by omega)]
      simp only [vld2q]; congr 1; omega
    · rw [store_out _ _ _ _ (by omega), store_out _ _ _ _ (by omega)]
  · refine loop_hit _ _ _ _ k _ hk (fun m => ?_) fun k' h1 h2 m => ?_
    · rw [store_in _ _ _ _ l (by omega)]
      simp only [vld2q]; congr 1; omega
    · rw [store_out _ _ _ _ (by omega), store_out _ _ _ _ (by omega)]

theorem backend_n4 (be : Backend) (n4 : Nat) (h : n4 % be.n = 0) : be ≠ .none → n4 % 4 = 0 := by
  cases be <;> simp_all [Backend.n] <;> omega

/-- the input is taken apart correctly by every back end, for any number of channels -/
theorem splitInput_is (be : Backend) (ch : Nat) (inp : Buf α) (n4 : Nat) (hn : n4 % be.n = 0) (junk : Buf α) (c j : Nat)
    (hc : c < ch) (hj : j < n4) : splitInput be ch inp n4 junk (c * n4 + j) = planar ch inp c j := by
  unfold splitInput planar
  split
  · omega
  · split
    · subst ch; obtain rfl : c = 0 := by omega
      congr 1; omega
    · split
      · subst ch
        cases be
        · exact splitSse_is inp n4 hn junk c j hc hj
        · exact splitSse_is inp n4 (backend_n4 .avx n4 hn (by simp)) junk c j hc hj
        · exact splitNeon_is inp n4 hn junk c j hc hj
        · exact splitScalar_is 2 inp n4 junk c j hc hj
      · exact splitScalar_is ch inp n4 junk c j hc hj

/-! ### output -/

theorem joinScalar_is (ch : Nat) (b : Buf α) (n4 : Nat) (out : Buf α) (c j : Nat) (hc : c < ch) (hj : j < n4) :
    joinScalar ch b n4 out (c + ch * j) = b (c * n4 + j) :=
  (nested ch n4 (fun i j => i + ch * j) (fun i j => b (i * n4 + j)) out
    (fun _ _ _ _ ha _ ha' _ e => idx_inj' ha ha' e)).1 c j hc hj

theorem idx_lt {ch c j n : Nat} (hc : c < ch) (hj : j < n) : c + ch * j < ch * n := by
  have : ch * (j + 1) ≤ ch * n := Nat.mul_le_mul_left _ hj
  rw [Nat.mul_add] at this
  omega

theorem joinScalar_rest (ch : Nat) (b : Buf α) (n4 : Nat) (out : Buf α) (i : Nat) (hi : ch * n4 ≤ i) :
    joinScalar ch b n4 out i = out i :=
  (nested ch n4 (fun i j => i + ch * j) (fun i j => b (i * n4 + j)) out
    (fun _ _ _ _ ha _ ha' _ e => idx_inj' ha ha' e)).2 i fun a j ha hj => by
      have := idx_lt ha hj
      omega

theorem joinSse_is (b : Buf α) (n4 : Nat) (h4 : n4 % 4 = 0) (out : Buf α) (c j : Nat) (hc : c < 2) (hj : j < n4) :
    joinSse b n4 out (c + 2 * j) = b (c * n4 + j) := by
  rw [joinSse]
  obtain ⟨k, l, rfl⟩ : ∃ k, ∃ l : Fin 4, j = 4 * k + l := ⟨j / 4, ⟨j % 4, by omega⟩, by simp; omega⟩
  have hl := l.isLt
  have hk : k < (n4 + 3) / 4 := by omega
  refine loop_hit _ _ _ _ k _ hk (fun m => ?_) fun k' h1 h2 m => ?_
  · by_cases h2 : l.val < 2
    · rw [store_out _ _ _ _ (by omega), store_in _ _ _ _ ⟨c + 2 * l, by omega⟩ (by simp; omega)]
      obtain rfl | rfl : c = 0 ∨ c = 1 := by omega
      · obtain rfl | rfl : l = 0 ∨ l = 1 := by omega
        all_goals simp [unpacklo, load]
      · obtain rfl | rfl : l = 0 ∨ l = 1 := by omega
        all_goals (simp [unpacklo, load]; try (first | (congr 1; omega) | rw [Nat.add_assoc]))
    · rw [store_in _ _ _ _ ⟨c + 2 * l - 4, by omega⟩ (by simp; omega)]
      obtain rfl | rfl : c = 0 ∨ c = 1 := by omega
      · obtain rfl | rfl : l = 2 ∨ l = 3 := by omega
        all_goals simp [unpackhi, load]
      · obtain rfl | rfl : l = 2 ∨ l = 3 := by omega
        all_goals (simp [unpackhi, load]; try (first | (congr 1; omega) | rw [Nat.add_assoc]))
  · rw [store_out _ _ _ _ (by omega), store_out _ _ _ _ (by omega)]

theorem joinSse_rest (b : Buf α) (n4 : Nat) (h4 : n4 % 4 = 0) (out : Buf α) (i : Nat) (hi : 2 * n4 ≤ i) :
    joinSse b n4 out i = out i :=
  loop_same _ _ _ _ fun k hk m => by
    rw [store_out _ _ _ _ (by omega), store_out _ _ _ _ (by omega)]

theorem joinNeon_is (b : Buf α) (n4 : Nat) (h4 : n4 % 4 = 0) (out : Buf α) (c j : Nat) (hc : c < 2) (hj : j < n4) :
    joinNeon b n4 out (c + 2 * j) = b (c * n4 + j) := by
  rw [joinNeon]
  obtain ⟨k, l, rfl⟩ : ∃ k, ∃ l : Fin 4, j = 4 * k + l := ⟨j / 4, ⟨j % 4, by omega⟩, by simp; omega⟩
  have hl := l.isLt
  have hk : k < (n4 + 3) / 4 := by omega
  refine loop_hit _ _ _ _ k _ hk (fun m => ?_) fun k' h1 h2 m => ?_
  · rw [vst2q, store_in _ _ _ _ ⟨c + 2 * l, by omega⟩ (by simp; omega)]
    obtain rfl | rfl : c = 0 ∨ c = 1 := by omega
    · fin_cases l <;> simp [load]
    · fin_cases l <;> (simp [load]; try (first | (congr 1; omega) | rw [Nat.add_assoc]))
  · rw [vst2q, store_out _ _ _ _ (by omega)]

theorem joinNeon_rest (b : Buf α) (n4 : Nat) (h4 : n4 % 4 = 0) (out : Buf α) (i : Nat) (hi : 2 * n4 ≤ i) :
    joinNeon b n4 out i = out i :=
  loop_same _ _ _ _ fun k hk m => by rw [vst2q, store_out _ _ _ _ (by omega)]

/-- where the AVX code takes frame `f` of a block of eight from -/
def avxOrder : Fin 8 → Fin 8 := ![0, 1, 4, 5, 2, 3, 6, 7]

/-- what the AVX code does: the frames of each block of eight are stored in the order 0, 1, 4, 5, 2, 3, 6, 7 -/
theorem joinAvx_is (b : Buf α) (n4 : Nat) (h8 : n4 % 8 = 0) (out : Buf α) (c k : Nat) (f : Fin 8) (hc : c < 2)
    (hk : 8 * k < n4) : joinAvx b n4 out (c + 2 * (8 * k + f)) = b (c * n4 + (8 * k + avxOrder f)) := by
  rw [joinAvx]
  have hf := f.isLt
  have hk : k < (n4 + 7) / 8 := by omega
  refine loop_hit _ _ _ _ k _ hk (fun m => ?_) fun k' h1 h2 m => ?_
  · by_cases h2 : f.val < 4
    · rw [store_out _ _ _ _ (by omega), store_in _ _ _ _ ⟨c + 2 * f, by omega⟩ (by simp; omega)]
      obtain rfl | rfl : c = 0 ∨ c = 1 := by omega
      · obtain rfl | rfl | rfl | rfl : f = 0 ∨ f = 1 ∨ f = 2 ∨ f = 3 := by omega
        all_goals simp [unpacklo8, load, avxOrder]
      · obtain rfl | rfl | rfl | rfl : f = 0 ∨ f = 1 ∨ f = 2 ∨ f = 3 := by omega
        all_goals (simp [unpacklo8, load, avxOrder]; try (first | (congr 1; omega) | rw [Nat.add_assoc]))
    · rw [store_in _ _ _ _ ⟨c + 2 * f - 8, by omega⟩ (by simp; omega)]
      obtain rfl | rfl : c = 0 ∨ c = 1 := by omega
      · obtain rfl | rfl | rfl | rfl : f = 4 ∨ f = 5 ∨ f = 6 ∨ f = 7 := by omega
        all_goals simp [unpackhi8, load, avxOrder]
      · obtain rfl | rfl | rfl | rfl : f = 4 ∨ f = 5 ∨ f = 6 ∨ f = 7 := by omega
        all_goals (simp [unpackhi8, load, avxOrder]; try (first | (congr 1; omega) | rw [Nat.add_assoc]))
  · rw [store_out _ _ _ _ (by omega), store_out _ _ _ _ (by omega)]

/-! ### the whole function -/

theorem processInline_is (be : Backend) (P : Process α) (co : Nat) (inp out : Buf α) (n4 : Nat) (h : n4 % be.n = 0) :
    ∃ r, processInline be P co inp out n4 = some r ∧
      (∀ c j, c < co → j < n4 → r (c * n4 + j) = P n4 (fun c j => inp (c * n4 + j)) c j) ∧
      ∀ i, co * n4 ≤ i → r i = out i := by
  rw [processInline, if_pos h]
  refine ⟨_, rfl, fun c j hc hj => ?_, fun i hi => ?_⟩
  · exact (nested co n4 (fun c j => c * n4 + j) (fun c j => P n4 (fun c j => inp (c * n4 + j)) c j) out
      (fun _ _ _ _ _ hb _ hb' e => idx_inj hb hb' e)).1 c j hc hj
  · refine (nested co n4 (fun c j => c * n4 + j) (fun c j => P n4 (fun c j => inp (c * n4 + j)) c j) out
      (fun _ _ _ _ _ hb _ hb' e => idx_inj hb hb' e)).2 i fun c j hc hj => ?_
    have : (c + 1) * n4 ≤ co * n4 := Nat.mul_le_mul_right _ hc
    rw [Nat.add_mul] at this
    omega

/-- **C27**, every back end except AVX with two output channels: for every number of channels and every block size, the
interleaved call leaves the interleaving of what the signal code computes from the de-interleaved input, and nothing else
changes -/
theorem interleaved_correct_partial (be : Backend) (P : Process α) (ci co : Nat) (hP : Local P ci)
    (inp out junkIn junkOut : Buf α) (n4 : Nat) (hn : n4 % be.n = 0) (h0 : 0 < n4) (hav : ¬ (be = .avx ∧ co = 2)) :
    ∃ r, processInlineInterleaved be P ci co inp out junkIn junkOut n4 = some r ∧
      (∀ c j, c < co → j < n4 → r (c + co * j) = P n4 (planar ci inp) c j) ∧
      ∀ i, co * n4 ≤ i → r i = out i := by
  have hge : ¬ n4 < be.n := fun h => by rw [Nat.mod_eq_of_lt h] at hn; omega
  have hs : P n4 (fun c j => splitInput be ci inp n4 junkIn (c * n4 + j)) = P n4 (planar ci inp) :=
    hP n4 _ _ fun c j hc hj => splitInput_is be ci inp n4 hn junkIn c j hc hj
  rw [processInlineInterleaved, if_neg hge]
  obtain ⟨r, hr, h1, h2⟩ := processInline_is be P co (splitInput be ci inp n4 junkIn) (if co = 1 then out else junkOut) n4 hn
  dsimp only
  rw [hr]
  rw [hs] at h1
  refine ⟨_, rfl, fun c j hc hj => ?_, fun i hi => ?_⟩
  · rw [← h1 c j hc hj]
    unfold joinOutput
    split
    · omega
    · split
      · subst co; obtain rfl : c = 0 := by omega
        congr 1; omega
      · split
        · subst co
          cases be
          · exact joinSse_is r n4 hn out c j hc hj
          · exact absurd ⟨rfl, rfl⟩ hav
          · exact joinNeon_is r n4 hn out c j hc hj
          · exact joinScalar_is 2 r n4 out c j hc hj
        · exact joinScalar_is co r n4 out c j hc hj
  · unfold joinOutput
    split
    · rfl
    · split
      · rename_i h; show r i = out i; rw [h2 i hi, if_pos h]
      · split
        · subst co
          cases be
          · exact joinSse_rest r n4 hn out i hi
          · exact absurd ⟨rfl, rfl⟩ hav
          · exact joinNeon_rest r n4 hn out i hi
          · exact joinScalar_rest 2 r n4 out i hi
        · exact joinScalar_rest co r n4 out i hi

/-- **C27 fails for AVX with two output channels**: in every block of eight frames, frames 2-3 and 4-5 change places -/
theorem interleaved_avx (P : Process α) (ci : Nat) (hP : Local P ci) (inp out junkIn junkOut : Buf α) (n4 : Nat)
    (hn : n4 % 8 = 0) (h0 : 0 < n4) :
    ∃ r, processInlineInterleaved .avx P ci 2 inp out junkIn junkOut n4 = some r ∧
      ∀ c k (f : Fin 8), c < 2 → 8 * k < n4 → r (c + 2 * (8 * k + f)) = P n4 (planar ci inp) c (8 * k + avxOrder f) := by
  have hs : P n4 (fun c j => splitInput .avx ci inp n4 junkIn (c * n4 + j)) = P n4 (planar ci inp) :=
    hP n4 _ _ fun c j hc hj => splitInput_is .avx ci inp n4 hn junkIn c j hc hj
  rw [processInlineInterleaved, if_neg (show ¬ n4 < Backend.avx.n by simp only [Backend.n]; omega)]
  obtain ⟨r, hr, h1, -⟩ := processInline_is .avx P 2 (splitInput .avx ci inp n4 junkIn) junkOut n4 hn
  dsimp only
  rw [if_neg (by decide), hr]
  rw [hs] at h1
  refine ⟨_, rfl, fun c k f hc hk => ?_⟩
  have := (avxOrder f).isLt
  rw [← h1 c (8 * k + avxOrder f) hc (by omega)]
  exact joinAvx_is r n4 hn out c k f hc hk

/-- a patch that copies its two inputs to its two outputs: the frames 0, 1, …, 7 come out as 0, 1, 4, 5, 2, 3, 6, 7 -/
theorem interleaved_avx_wrong : ∃ r, processInlineInterleaved .avx (fun _ x => x) 2 2 (fun i => i / 2) (fun _ => 0)
      (fun _ => 0) (fun _ => 0) 8 = some r ∧ r 4 = 4 ∧ planar 2 (fun i => i / 2) 0 2 = 2 := by
  refine ⟨_, rfl, ?_, rfl⟩
  decide

/-- the interleaved call refuses an empty block, which the planar ones accept, and its own check accepts block sizes that are
not multiples of the vector size (those are then refused by the check of the planar call) -/
theorem interleaved_check (be : Backend) (P : Process α) (ci co : Nat) (inp out j1 j2 : Buf α) :
    processInlineInterleaved be P ci co inp out j1 j2 0 = none ∧
    (∃ r, processInline be P co inp out 0 = some r) ∧
    ∀ n4, n4 % be.n ≠ 0 → processInlineInterleaved be P ci co inp out j1 j2 n4 = none := by
  refine ⟨?_, ?_, fun n4 h => ?_⟩
  · cases be <;> rfl
  · cases be <;> exact ⟨_, rfl⟩
  · rw [processInlineInterleaved]
    split
    · rfl
    · dsimp only; rw [processInline, if_neg h]; rfl

/-- a local patch: each output is the sum of the two inputs, up to the end of the block -/
example : Local (α := Int) (fun n4 x _ j => if j < n4 then x 0 j + x 1 j else 0) 2 := by
  intro n4 x y h
  funext c j
  dsimp only
  split
  · rw [h 0 j (by decide) (by assumption), h 1 j (by decide) (by assumption)]
  · rfl

end Verif.Interleave
