import Verif.Samphold
import Verif.Props.Simd
import Mathlib.Tactic.IntervalCases
/-!
# C26: sample and hold

Specification: at every sample the output is the input if the trigger is on, otherwise the value set by the latest
message if one arrived just before this sample, otherwise the previous output (0 at first).
-/
set_option linter.unusedSimpArgs false

namespace Verif.Samphold
open Verif.Simd

variable {α : Type}

/-! ### specification -/

/-- `set n`: the value received by message just before sample `n` -/
def IsHold [Zero α] (x : Nat → α) (t : Nat → Prop) [DecidablePred t] (set : Nat → Option α) (y : Nat → α) : Prop :=
  ∀ n, y n = if t n then x n else (set n).getD (D y 1 n)

/-- messages arrive between blocks of `N` samples -/
def atBlocks (N : Nat) (msgs : Nat → Option α) (n : Nat) : Option α := if n % N = 0 then msgs (n / N) else none

/-- what the equation means when there are no messages: the output is the input at the latest sample whose trigger was on,
and 0 before the first one -/
theorem IsHold.latest [Zero α] {x : Nat → α} {t : Nat → Prop} [DecidablePred t] {y : Nat → α}
    (h : IsHold x t (fun _ => none) y) (n : Nat) :
    (∃ m ≤ n, t m ∧ (∀ i, m < i → i ≤ n → ¬ t i) ∧ y n = x m) ∨ ((∀ m ≤ n, ¬ t m) ∧ y n = 0) := by
  induction n with
  | zero =>
    have := h 0
    by_cases ht : t 0
    · exact .inl ⟨0, le_rfl, ht, fun i h1 h2 => by omega, by simpa [ht] using this⟩
    · refine .inr ⟨fun m hm => ?_, by simpa [ht] using this⟩
      obtain rfl : m = 0 := by omega
      exact ht
  | succ n ih =>
    have := h (n + 1)
    by_cases ht : t (n + 1)
    · exact .inl ⟨n + 1, le_rfl, ht, fun i h1 h2 => by omega, by simpa [ht] using this⟩
    · have hy : y (n + 1) = y n := by simpa [ht] using this
      rcases ih with ⟨m, hm, h1, h2, h3⟩ | ⟨h1, h2⟩
      · refine .inl ⟨m, by omega, h1, fun i hi hj => ?_, by rw [hy, h3]⟩
        by_cases e : i = n + 1
        · exact e ▸ ht
        · exact h2 i hi (by omega)
      · refine .inr ⟨fun m hm => ?_, by rw [hy, h2]⟩
        by_cases e : m = n + 1
        · exact e ▸ ht
        · exact h1 m (by omega)

/-! ### four lanes -/

/-- the four outputs of a block that begins with the held value `s` -/
def hold4 (s : α) (x : V 4 α) (b : Fin 4 → Bool) : V 4 α :=
  let y0 := if b 0 then x 0 else s
  let y1 := if b 1 then x 1 else y0
  let y2 := if b 2 then x 2 else y1
  let y3 := if b 3 then x 3 else y2
  ![y0, y1, y2, y3]

theorem sseCase_is (s : α) (x : V 4 α) (b0 b1 b2 b3 : Bool) :
    sseCase (fun _ => s) x (b0.toNat + 2 * b1.toNat + 4 * b2.toNat + 8 * b3.toNat) =
      (fun _ => hold4 s x ![b0, b1, b2, b3] 3, hold4 s x ![b0, b1, b2, b3]) := by
  rcases b0 <;> rcases b1 <;> rcases b2 <;> rcases b3
  all_goals refine Prod.ext (funext fun j => ?_) (funext fun j => ?_)
  all_goals fin_cases j <;> rfl

theorem sse_is (s : α) (x : V 4 α) (t : V 4 (BitVec 32)) :
    sse (fun _ => s) x t = (fun _ => hold4 s x (fun i => (t i).msb) 3, hold4 s x (fun i => (t i).msb)) :=
  sseCase_is s x (t 0).msb (t 1).msb (t 2).msb (t 3).msb

theorem sumMask (b0 b1 b2 b3 : Bool) :
    (((if b0 then 1#32 else 0#32) ||| (if b2 then 4#32 else 0#32)) |||
      ((if b1 then 2#32 else 0#32) ||| (if b3 then 8#32 else 0#32))).toNat =
    b0.toNat + 2 * b1.toNat + 4 * b2.toNat + 8 * b3.toNat := by
  rcases b0 <;> rcases b1 <;> rcases b2 <;> rcases b3 <;> rfl

/-- the NEON mask collects bit `i` of lane `i` -/
theorem neonMask_is (t : W) :
    neonMask t = ((t 0).getLsbD 0).toNat + 2 * ((t 1).getLsbD 1).toNat + 4 * ((t 2).getLsbD 2).toNat +
      8 * ((t 3).getLsbD 3).toNat := by
  have h : neonMask t = (((t 0 &&& 1#32) ||| (t 2 &&& 4#32)) ||| ((t 1 &&& 2#32) ||| (t 3 &&& 8#32))).toNat := by
    simp only [neonMask, vand, vorr, vext]
    congr 2
    exact BitVec.or_comm _ _
  have m : ∀ (w : BitVec 32) (i : Nat) (p : BitVec 32), p = BitVec.twoPow 32 i → w &&& p = if w.getLsbD i then p else 0#32 := by
    intro w i p hp
    subst hp
    exact BitVec.and_twoPow w i
  rw [h, m (t 0) 0 1#32 rfl, m (t 1) 1 2#32 rfl, m (t 2) 2 4#32 rfl, m (t 3) 3 8#32 rfl]
  exact sumMask _ _ _ _

/-- the bits that the NEON code looks at -/
def neonBit (t : W) (i : Fin 4) : Bool := (t i).getLsbD i

/-- the masks whose output is wrong -/
def Bad (b : Fin 4 → Bool) : Prop :=
  b = ![true, false, true, false] ∨ b = ![false, true, true, false] ∨ b = ![true, false, false, true] ∨
  b = ![false, true, false, true] ∨ b = ![true, false, true, true]

/-- what the NEON code puts out for the wrong masks -/
def badOut (x : V 4 α) (b : Fin 4 → Bool) : V 4 α :=
  if b 2 then (if b 3 then ![x 3, x 1, x 2, x 3] else ![x 0, x 1, x 2, x 2]) else ![x 0, x 1, x 1, x 3]

instance (b : Fin 4 → Bool) : Decidable (Bad b) := by unfold Bad; infer_instance

theorem sel_l (w : BitVec 32) : w &&& F = w := BitVec.and_allOnes
theorem sel_0 (w : BitVec 32) : w &&& 0#32 = 0#32 := BitVec.and_zero

theorem neonSwitch_is (s : BitVec 32) (x : W) (b0 b1 b2 b3 : Bool) :
    neonSwitch 16 (fun _ => s) x (b0.toNat + 2 * b1.toNat + 4 * b2.toNat + 8 * b3.toNat) =
      (fun _ => hold4 s x ![b0, b1, b2, b3] 3,
      if Bad ![b0, b1, b2, b3] then badOut x ![b0, b1, b2, b3] else hold4 s x ![b0, b1, b2, b3]) := by
  have z : ∀ w : BitVec 32, w &&& 0 = 0 := fun w => BitVec.and_zero
  have o1 : ∀ w : BitVec 32, 0 ||| w = w := fun w => BitVec.zero_or
  have o2 : ∀ w : BitVec 32, w ||| 0 = w := fun w => BitVec.or_zero
  rcases b0 <;> rcases b1 <;> rcases b2 <;> rcases b3
  all_goals
    simp only [Bool.toNat_false, Bool.toNat_true, Nat.reduceMul, Nat.reduceAdd, neonSwitch, neonCase, if_true, if_false,
      Bool.false_eq_true]
    refine Prod.ext (funext fun j => ?_) (funext fun j => ?_)
  all_goals
    first
    | (fin_cases j <;> rfl)
    | (rw [if_pos (by decide)]
       fin_cases j <;> simp [vorr, vand, vdup, vext, sel_l, z, o1, o2, badOut])
    | (rw [if_neg (by decide)]
       fin_cases j <;> simp [vorr, vand, vdup, vext, sel_l, z, o1, o2, hold4])

theorem neon_is (s : BitVec 32) (x t : W) :
    neon (fun _ => s) x t = (fun _ => hold4 s x (neonBit t) 3,
      if Bad (neonBit t) then badOut x (neonBit t) else hold4 s x (neonBit t)) := by
  have hb : neonBit t = ![(t 0).getLsbD 0, (t 1).getLsbD 1, (t 2).getLsbD 2, (t 3).getLsbD 3] := by
    funext i; fin_cases i <;> rfl
  rw [neon, neonMask_is, hb, neonSwitch_is]

/-! ### streams -/

/-- a solution of the equation -/
def holdRec [Zero α] (x : Nat → α) (t : Nat → Prop) [DecidablePred t] (set : Nat → Option α) : Nat → α
  | 0 => if t 0 then x 0 else (set 0).getD 0
  | n + 1 => if t (n + 1) then x (n + 1) else (set (n + 1)).getD (holdRec x t set n)

theorem holdRec_is [Zero α] (x : Nat → α) (t : Nat → Prop) [DecidablePred t] (set : Nat → Option α) :
    IsHold x t set (holdRec x t set) := by
  intro n
  cases n with
  | zero => simp [holdRec]
  | succ n => rw [holdRec]; simp

theorem atBlocks_zero (N : Nat) (h : 0 < N) (msgs : Nat → Option α) (k : Nat) : atBlocks N msgs (k * N) = msgs k := by
  simp [atBlocks, Nat.mul_div_cancel _ h]

theorem atBlocks_pos (N : Nat) (msgs : Nat → Option α) (k j : Nat) (h : 0 < j) (hj : j < N) :
    atBlocks N msgs (k * N + j) = none := by
  have : (k * N + j) % N = j := by rw [Nat.add_comm, Nat.add_mul_mod_self_right, Nat.mod_eq_of_lt hj]
  simp [atBlocks, this]; omega

theorem hold4_at [Zero α] {x : Nat → α} {t : Nat → Prop} [DecidablePred t] {msgs : Nat → Option α} {y : Nat → α}
    (h : IsHold x t (atBlocks 4 msgs) y) (k : Nat) (b : Fin 4 → Bool) (hb : ∀ j : Fin 4, b j = decide (t (k * 4 + j)))
    (j : Fin 4) : hold4 ((msgs k).getD (D y 1 (k * 4))) (block 4 x k) b j = y (k * 4 + j) := by
  have c0 : ((0 : Fin 4) : Nat) = 0 := rfl
  have c1 : ((1 : Fin 4) : Nat) = 1 := rfl
  have c2 : ((2 : Fin 4) : Nat) = 2 := rfl
  have c3 : ((3 : Fin 4) : Nat) = 3 := rfl
  have y0 := h (k * 4 + 0)
  have y1 := h (k * 4 + 1)
  have y2 := h (k * 4 + 2)
  have y3 := h (k * 4 + 3)
  rw [Nat.add_zero, atBlocks_zero 4 (by decide)] at y0
  rw [atBlocks_pos 4 _ _ 1 (by decide) (by decide), D_at y 1 _ (k * 4) rfl] at y1
  rw [atBlocks_pos 4 _ _ 2 (by decide) (by decide), D_at y 1 _ (k * 4 + 1) rfl] at y2
  rw [atBlocks_pos 4 _ _ 3 (by decide) (by decide), D_at y 1 _ (k * 4 + 2) rfl] at y3
  simp only [Option.getD_none] at y1 y2 y3
  simp only [hold4, hb, block, c0, c1, c2, c3, Nat.add_zero, decide_eq_true_eq]
  rw [← y0, ← y1, ← y2, ← y3]
  fin_cases j <;> rfl

/-- the inputs of block `k` -/
def inputs (N : Nat) (msgs : Nat → Option α) (x : Nat → α) (tr : Nat → BitVec 32) (k : Nat) :
    Option α × V N α × V N (BitVec 32) := (msgs k, block N x k, block N tr k)

theorem onMessage_const {N : Nat} (s : α) (m : Option α) : onMessage (N := N) (fun _ => s) m = fun _ => m.getD s := by
  cases m <;> rfl

/-- **C26**, SSE: for every signal, every trigger signal (a sample is on when its sign bit is set, as in a comparison mask)
and every sequence of messages -/
theorem samphold_sse [Zero α] (msgs : Nat → Option α) (x : Nat → α) (tr : Nat → BitVec 32) :
    IsHold x (fun n => (tr n).msb) (atBlocks 4 msgs)
      (stream (by decide) (outAt (blockStep sse) zero (inputs 4 msgs x tr))) := by
  have hy := holdRec_is x (fun n => (tr n).msb = true) (atBlocks 4 msgs)
  generalize holdRec x (fun n => (tr n).msb = true) (atBlocks 4 msgs) = y at hy
  have step : ∀ k, blockStep sse (fun _ => D y 1 (k * 4)) (inputs 4 msgs x tr k) =
      (fun _ => y (k * 4 + 3), fun j : Fin 4 => y (k * 4 + j)) := by
    intro k
    rw [blockStep, inputs, onMessage_const, sse_is]
    have := hold4_at hy k (fun i => (block 4 tr k i).msb) (fun j => by simp [block])
    exact Prod.ext (funext fun j => this 3) (funext fun j => this j)
  have inv : ∀ k, stateAt (blockStep sse) zero (inputs 4 msgs x tr) k = fun _ => D y 1 (k * 4) := by
    intro k
    induction k with
    | zero => rfl
    | succ k ih =>
      rw [stateAt, ih, step]
      funext _
      exact (D_at y 1 _ (k * 4 + 3) (by omega)).symm
  rw [stream_eq (y := y)]
  · exact hy
  · intro k j
    rw [outAt, inv, step]

/-- **C26**, NEON, what is true: the held value is right after every block, and the output is right in every block
whose four triggers are not one of the patterns `Bad`; for those five patterns the output is `badOut` (the `case` bodies
lack a `break`) -/
theorem samphold_neon_partial (msgs : Nat → Option (BitVec 32)) (x tr : Nat → BitVec 32) (y : Nat → BitVec 32)
    (hy : IsHold x (fun n => (tr n).getLsbD (n % 4)) (atBlocks 4 msgs) y) :
    (∀ k j, stateAt (blockStep neon) zero (inputs 4 msgs x tr) (k + 1) j = y (k * 4 + 3)) ∧
    ∀ k (j : Fin 4), outAt (blockStep neon) zero (inputs 4 msgs x tr) k j =
      if Bad (neonBit (block 4 tr k)) then badOut (block 4 x k) (neonBit (block 4 tr k)) j else y (k * 4 + j) := by
  have step : ∀ k, blockStep neon (fun _ => D y 1 (k * 4)) (inputs 4 msgs x tr k) =
      (fun _ => y (k * 4 + 3), fun j => if Bad (neonBit (block 4 tr k)) then badOut (block 4 x k) (neonBit (block 4 tr k)) j
        else y (k * 4 + j)) := by
    intro k
    rw [blockStep, inputs, onMessage_const, neon_is]
    have := hold4_at hy k (neonBit (block 4 tr k)) (fun j => by
      have : (k * 4 + (j : Nat)) % 4 = j := by omega
      simp [neonBit, block, this])
    refine Prod.ext (funext fun j => this 3) (funext fun j => ?_)
    dsimp only
    split
    · rfl
    · exact this j
  have inv : ∀ k, stateAt (blockStep neon) zero (inputs 4 msgs x tr) k = fun _ => D y 1 (k * 4) := by
    intro k
    induction k with
    | zero => rfl
    | succ k ih =>
      rw [stateAt, ih, step]
      funext _
      exact (D_at y 1 _ (k * 4 + 3) (by omega)).symm
  refine ⟨fun k j => ?_, fun k j => ?_⟩
  · rw [stateAt, inv, step]
  · rw [outAt, inv, step]

/-- **C26 fails for NEON** exactly for these patterns, in the first block already: the samples 1, 2, 3, 4 with triggers on at
the first and third sample give 1, 2, 3, 3 instead of 1, 1, 3, 3 -/
theorem samphold_neon_wrong :
    ¬ IsHold (fun n => BitVec.ofNat 32 (n + 1)) (fun n => n = 0 ∨ n = 2) (fun _ => none)
      (stream (by decide) (outAt (blockStep neon) zero
        (inputs 4 (fun _ => none) (fun n => BitVec.ofNat 32 (n + 1)) (fun n => if n = 0 ∨ n = 2 then F else 0)))) := by
  intro h
  have := h 1
  revert this
  decide

/-- **C26**, one sample at a time: on when the trigger is not a zero -/
theorem samphold_scalar [Zero α] (msgs : Nat → Option α) (x : Nat → α) (tr : Nat → BitVec 32) :
    IsHold x (fun n => tr n ≠ 0#32 ∧ tr n ≠ 0x80000000#32) (atBlocks 1 msgs)
      (stream (by decide) (outAt (blockStep none1) zero (inputs 1 msgs x tr))) := by
  have hy := holdRec_is x (fun n => tr n ≠ 0#32 ∧ tr n ≠ 0x80000000#32) (atBlocks 1 msgs)
  generalize holdRec x (fun n => tr n ≠ 0#32 ∧ tr n ≠ 0x80000000#32) (atBlocks 1 msgs) = y at hy
  have step : ∀ k, blockStep none1 (fun _ => D y 1 k) (inputs 1 msgs x tr k) = (fun _ => y k, fun _ => y k) := by
    intro k
    have h := hy k
    have hm : atBlocks 1 msgs k = msgs k := by simpa using atBlocks_zero 1 (by decide) msgs k
    rw [hm] at h
    have : (fun _ => y k) = fun _ : Fin 1 => if tr k ≠ 0#32 ∧ tr k ≠ 0x80000000#32 then x k else (msgs k).getD (D y 1 k) := by
      rw [← h]
    rw [this, blockStep, inputs, onMessage_const]
    unfold none1
    have e : block 1 x k = fun _ => x k := by funext j; obtain rfl : j = 0 := Subsingleton.elim _ _; simp [block]
    have e' : block 1 tr k 0 = tr k := by simp [block]
    simp only [e, e']
    split <;> rfl
  have inv : ∀ k, stateAt (blockStep none1) zero (inputs 1 msgs x tr) k = fun _ => D y 1 k := by
    intro k
    induction k with
    | zero => rfl
    | succ k ih =>
      rw [stateAt, ih, step]
      funext _
      simp
  rw [stream_eq (y := y)]
  · exact hy
  · intro k j
    obtain rfl : j = 0 := Subsingleton.elim _ _
    rw [outAt, inv, step]
    simp

/-- the trigger signals that the comparison objects deliver: all ones or zero in the vector back ends, 1.0 or 0.0 in the
scalar one; all of them mean the same -/
theorem trigger_representations (b : Bool) :
    ((if b then F else 0#32).msb = b) ∧ (∀ i < 4, (if b then F else 0#32).getLsbD i = b) ∧
    (decide ((if b then 0x3F800000#32 else 0#32) ≠ 0#32 ∧ (if b then 0x3F800000#32 else 0#32) ≠ 0x80000000#32) = b) := by
  cases b <;> decide

/-- so with comparison triggers SSE and scalar code agree, for any signal -/
theorem samphold_back_ends_agree [Zero α] (x : Nat → α) (b : Nat → Bool) :
    stream (by decide) (outAt (blockStep sse) zero (inputs 4 (fun _ => none) x fun n => if b n then F else 0#32)) =
    stream (by decide) (outAt (blockStep none1) zero
      (inputs 1 (fun _ => none) x fun n => if b n then 0x3F800000#32 else 0#32)) := by
  have h1 := samphold_sse (fun _ => none) x (fun n => if b n then F else 0#32)
  have h2 := samphold_scalar (fun _ => none) x (fun n => if b n then 0x3F800000#32 else 0#32)
  have a : ∀ N n, atBlocks N (fun _ => (none : Option α)) n = none := fun N n => by simp [atBlocks]
  have r1 : ∀ n, (if b n then F else 0#32).msb = b n := fun n => (trigger_representations (b n)).1
  have r2 : ∀ n, ((if b n then 0x3F800000#32 else 0#32) ≠ 0#32 ∧ (if b n then 0x3F800000#32 else 0#32) ≠ 0x80000000#32) ↔
      b n = true := fun n => by
    generalize b n = c
    cases c <;> decide
  generalize stream _ (outAt (blockStep sse) _ _) = u at h1 ⊢
  generalize stream _ (outAt (blockStep none1) _ _) = v at h2 ⊢
  funext n
  induction n with
  | zero =>
    rw [h1 0, h2 0]
    simp only [a, r1, r2]
    simp
  | succ n ih =>
    rw [h1 (n + 1), h2 (n + 1)]
    simp only [a, Option.getD_none, D_succ_succ, D_zero, ih, r1, r2]

end Verif.Samphold
