import Verif.Line
import Verif.Props.Simd
import Mathlib.Tactic.FieldSimp
import Mathlib.Algebra.CharZero.Defs
import Mathlib.Tactic.NormNum
import Mathlib.Data.Rat.Defs
/-!
# C28: line~

Specification: `rampSpec x0 v n i` is the straight line from `x0` at sample 0 to `v` at sample `n`, and `v` from then on.
-/
set_option linter.unusedSimpArgs false

namespace Verif.Line
open Verif.Simd

variable {α : Type}

/-! ### specification -/

/-- linear from `x0` (sample 0) to `v` (sample `n`), then `v` -/
def rampSpec [Field α] (x0 v : α) (n i : Nat) : α := if i ≤ n then x0 + i * ((v - x0) / n) else v

/-- the line meets its target exactly at sample `n`, so both cases of the definition agree there -/
theorem rampSpec_end [Field α] [CharZero α] (x0 v : α) (n : Nat) (h : 0 < n) : rampSpec x0 v n n = v := by
  have : (n : α) ≠ 0 := Nat.cast_ne_zero.mpr (by omega)
  simp only [rampSpec, le_refl, if_true]
  field_simp
  ring

/-- the samples put out after a message, four lanes -/
def after4 [Field α] (o : L4 α) (m : Msg α) : Nat → α :=
  stream (by decide) (outAt L4.step (o.onMessage m) fun _ => ())

/-- the samples put out after a message, eight lanes -/
def after8 [Field α] (o : L8 α) (m : Msg α) : Nat → α :=
  stream (by decide) (outAt L8.step (o.onMessage m) fun _ => ())

/-! ### what the counters do -/

/-- the sign of the wrapped counter, while it has not wrapped -/
theorem counter_sign (n i : Nat) (hn : n < 2 ^ 31) (hi : i ≤ n + 2 ^ 31) :
    (BitVec.ofNat 32 n - BitVec.ofNat 32 i).slt 0#32 = decide (n < i) := by
  have e : (BitVec.ofNat 32 n - BitVec.ofNat 32 i).toInt = (n : Int) - i := by
    rw [BitVec.toInt_eq_toNat_bmod, BitVec.toNat_sub, BitVec.toNat_ofNat, BitVec.toNat_ofNat, Int.bmod_def]
    omega
  rw [BitVec.slt, e]
  simp

theorem sub_ofNat (n : BitVec 32) (a b : Nat) : n - BitVec.ofNat 32 a - BitVec.ofNat 32 b = n - BitVec.ofNat 32 (a + b) := by
  apply BitVec.eq_of_toNat_eq
  simp only [BitVec.toNat_sub, BitVec.toNat_ofNat]
  omega

/-- state of the four-lane object `k` blocks after a ramp message -/
theorem ramp4_state [Field α] (o : L4 α) (v : α) (n : BitVec 32) (k : Nat) :
    stateAt L4.step (o.onMessage (.ramp v n)) (fun _ => ()) k =
      ⟨fun i => n - BitVec.ofNat 32 (k * 4 + i), fun i => o.start + ((k * 4 + i : Nat) : α) * ((v - o.start) / toF n),
       fun _ => 4 * ((v - o.start) / toF n), fun _ => v⟩ := by
  induction k with
  | zero =>
    simp only [stateAt, L4.onMessage]
    congr 1
    · funext i; fin_cases i <;> simp
    · funext i; fin_cases i <;> simp
  | succ k ih =>
    rw [stateAt, ih]
    simp only [L4.step]
    congr 1
    · funext i
      rw [show (4#32) = BitVec.ofNat 32 4 from rfl, sub_ofNat]
      congr 2; omega
    · funext i
      simp only [add]
      push_cast
      ring

/-- exact behaviour of the four-lane object (SSE, NEON): after a ramp message in any state -/
theorem after4_eq [Field α] (o : L4 α) (v : α) (n : BitVec 32) (i : Nat) :
    after4 o (.ramp v n) i =
      if (n - BitVec.ofNat 32 i).slt 0#32 then v else o.start + (i : α) * ((v - o.start) / toF n) := by
  have e : i / 4 * 4 + i % 4 = i := by omega
  simp only [after4, stream, outAt, ramp4_state, L4.step, e]

/-- state of the eight-lane object `k` blocks after a ramp message -/
theorem ramp8_state [Field α] (o : L8 α) (v : α) (n : BitVec 32) (k : Nat) :
    stateAt L8.step (o.onMessage (.ramp v n)) (fun _ => ()) k =
      ⟨fun i => n - BitVec.ofNat 32 (k * 8 + i), fun i => o.start + ((k * 8 + i : Nat) : α) * ((v - o.start) / toF n),
       fun _ => 8 * ((v - o.start) / toF n), fun _ => v⟩ := by
  induction k with
  | zero =>
    simp only [stateAt, L8.onMessage]
    congr 1
    · funext i; fin_cases i <;> simp
    · funext i; fin_cases i <;> simp
  | succ k ih =>
    rw [stateAt, ih]
    simp only [L8.step]
    congr 1
    · funext i
      rw [show (4#32) = BitVec.ofNat 32 4 from rfl, sub_ofNat, sub_ofNat]
      congr 2; omega
    · funext i
      simp only [add]
      push_cast
      ring

/-- exact behaviour of the eight-lane object (AVX) -/
theorem after8_eq [Field α] (o : L8 α) (v : α) (n : BitVec 32) (i : Nat) :
    after8 o (.ramp v n) i =
      if (n - BitVec.ofNat 32 i).slt 0#32 then v else o.start + (i : α) * ((v - o.start) / toF n) := by
  have e : i / 8 * 8 + i % 8 = i := by omega
  simp only [after8, stream, outAt, ramp8_state, L8.step, e]
  split
  · simp only [e]
  · have e2 : i / 8 * 8 + (i % 8 - 4) + 4 = i := by omega
    rw [show (4#32) = BitVec.ofNat 32 4 from rfl, sub_ofNat, e2]

/-! ### C28: the ramp -/

theorem toF_ofNat [Field α] (n : Nat) (h : n < 2 ^ 31) : toF (α := α) (BitVec.ofNat 32 n) = (n : α) := by
  have : (BitVec.ofNat 32 n).toInt = (n : Int) := by
    rw [BitVec.toInt_eq_toNat_bmod, BitVec.toNat_ofNat, Int.bmod_def]; omega
  rw [toF, this, Int.cast_natCast]

/-- **C28**, SSE and NEON: whatever the state, after the message `[v t(` with `n` samples the output is the straight line
from `o.start` to `v` over `n` samples and `v` afterwards, for 2^31 samples after the target -/
theorem line4_ramp_partial [Field α] (o : L4 α) (v : α) (n i : Nat) (hn : n < 2 ^ 31) (hi : i ≤ n + 2 ^ 31) :
    after4 o (.ramp v (BitVec.ofNat 32 n)) i = rampSpec o.start v n i := by
  rw [after4_eq, counter_sign n i hn hi, toF_ofNat n hn, rampSpec]
  by_cases h : n < i
  · simp [h]
  · simp [h, Nat.le_of_not_lt h]

/-- **C28**, AVX -/
theorem line8_ramp_partial [Field α] (o : L8 α) (v : α) (n i : Nat) (hn : n < 2 ^ 31) (hi : i ≤ n + 2 ^ 31) :
    after8 o (.ramp v (BitVec.ofNat 32 n)) i = rampSpec o.start v n i := by
  rw [after8_eq, counter_sign n i hn hi, toF_ofNat n hn, rampSpec]
  by_cases h : n < i
  · simp [h]
  · simp [h, Nat.le_of_not_lt h]

/-- **C28 fails in the long run**: the counter wraps, and from 2^31 + 1 samples after the target on the output leaves the
target and continues the line as if it had never ended -/
theorem line4_leaves_target [Field α] (o : L4 α) (v : α) (n i : Nat) (hn : n < 2 ^ 31) (hi : n + 2 ^ 31 < i)
    (hi' : i ≤ n + 2 ^ 32) :
    after4 o (.ramp v (BitVec.ofNat 32 n)) i = o.start + (i : α) * ((v - o.start) / n) := by
  have e : (BitVec.ofNat 32 n - BitVec.ofNat 32 i).toInt = (n : Int) - i + 2 ^ 32 := by
    rw [BitVec.toInt_eq_toNat_bmod, BitVec.toNat_sub, BitVec.toNat_ofNat, BitVec.toNat_ofNat, Int.bmod_def]
    omega
  have : (BitVec.ofNat 32 n - BitVec.ofNat 32 i).slt 0#32 = false := by
    rw [BitVec.slt, e]; simp; omega
  rw [after4_eq, this, toF_ofNat n hn]
  simp

/-- the same for AVX -/
theorem line8_leaves_target [Field α] (o : L8 α) (v : α) (n i : Nat) (hn : n < 2 ^ 31) (hi : n + 2 ^ 31 < i)
    (hi' : i ≤ n + 2 ^ 32) :
    after8 o (.ramp v (BitVec.ofNat 32 n)) i = o.start + (i : α) * ((v - o.start) / n) := by
  have e : (BitVec.ofNat 32 n - BitVec.ofNat 32 i).toInt = (n : Int) - i + 2 ^ 32 := by
    rw [BitVec.toInt_eq_toNat_bmod, BitVec.toNat_sub, BitVec.toNat_ofNat, BitVec.toNat_ofNat, Int.bmod_def]
    omega
  have : (BitVec.ofNat 32 n - BitVec.ofNat 32 i).slt 0#32 = false := by
    rw [BitVec.slt, e]; simp; omega
  rw [after8_eq, this, toF_ofNat n hn]
  simp

/-- a concrete ramp, from 0 to 8 in 4 samples: 0, 2, 4, 6, 8, 8, …, and 2^31 samples after the target the value
4294967306 -/
example : (∀ i, i ≤ 2 ^ 31 → after4 (L4.init : L4 Rat) (.ramp 8 4#32) i = if i ≤ 4 then 2 * i else 8) ∧
    after4 (L4.init : L4 Rat) (.ramp 8 4#32) (4 + 2 ^ 31 + 1) = 4294967306 := by
  have hs : (L4.init : L4 Rat).start = 0 := by rfl
  constructor
  · intro i hi
    rw [show (4#32) = BitVec.ofNat 32 4 from rfl, line4_ramp_partial _ _ 4 i (by decide) (by omega), rampSpec, hs]
    split
    · norm_num; ring
    · rfl
  · rw [show (4#32) = BitVec.ofNat 32 4 from rfl, line4_leaves_target _ _ 4 _ (by decide) (by omega) (by omega), hs]
    norm_num

/-- after a jump the output is the value, for ever -/
theorem line4_jump [Field α] (o : L4 α) (v : α) (i : Nat) : after4 o (.jump v) i = v := by
  have hs : ∀ k, (stateAt L4.step (o.onMessage (.jump v)) (fun _ => ()) k).x = (fun _ => v) ∧
      (stateAt L4.step (o.onMessage (.jump v)) (fun _ => ()) k).m = zero ∧
      (stateAt L4.step (o.onMessage (.jump v)) (fun _ => ()) k).t = fun _ => v := by
    intro k
    induction k with
    | zero => exact ⟨rfl, rfl, rfl⟩
    | succ k ih =>
      rw [stateAt]
      refine ⟨?_, ih.2.1, ih.2.2⟩
      simp only [L4.step, ih.1, ih.2.1]
      funext j; simp [add, zero]
  simp only [after4, stream, outAt, L4.step, (hs _).1, (hs _).2.2]
  simp

/-- the same for AVX -/
theorem line8_jump [Field α] (o : L8 α) (v : α) (i : Nat) : after8 o (.jump v) i = v := by
  have hs : ∀ k, (stateAt L8.step (o.onMessage (.jump v)) (fun _ => ()) k).x = (fun _ => v) ∧
      (stateAt L8.step (o.onMessage (.jump v)) (fun _ => ()) k).m = zero ∧
      (stateAt L8.step (o.onMessage (.jump v)) (fun _ => ()) k).t = fun _ => v := by
    intro k
    induction k with
    | zero => exact ⟨rfl, rfl, rfl⟩
    | succ k ih =>
      rw [stateAt]
      refine ⟨?_, ih.2.1, ih.2.2⟩
      simp only [L8.step, ih.1, ih.2.1]
      funext j; simp [add, zero]
  simp only [after8, stream, outAt, L8.step, (hs _).1, (hs _).2.2]
  simp

/-- after `[stop(` the output is constant -/
theorem line4_stop [Field α] (o : L4 α) (i : Nat) : after4 o .stop i = o.start := line4_jump o o.start i

/-- the same for AVX -/
theorem line8_stop [Field α] (o : L8 α) (i : Nat) : after8 o .stop i = o.start := line8_jump o o.start i

/-! ### C28: where a new ramp starts -/

/-- the state `k` blocks after the ramp message -/
def L4.at [Field α] (o : L4 α) (v : α) (n k : Nat) : L4 α :=
  stateAt L4.step (o.onMessage (.ramp v (BitVec.ofNat 32 n))) (fun _ => ()) k

/-- a second ramp (or stop) `k` blocks after the first one starts at sample `4k + 4` of the first line, four samples ahead
of the sample that would have been next, five ahead of the one last put out; and at the target when fewer than four samples
of the line remain -/
theorem line4_retrigger [Field α] [CharZero α] (o : L4 α) (v : α) (n k : Nat) (hn : n < 2 ^ 31)
    (hk : k * 4 + 3 ≤ n + 2 ^ 31) :
    (o.at v n k).start = if k * 4 + 3 < n then rampSpec o.start v n (k * 4 + 4) else v := by
  have h4 : (4 : α) ≠ 0 := by exact_mod_cast (Nat.cast_ne_zero (R := α)).mpr (by decide : (4 : Nat) ≠ 0)
  have e : (BitVec.ofNat 32 n - BitVec.ofNat 32 (k * 4 + 3)).toInt = (n : Int) - (k * 4 + 3 : Nat) := by
    rw [BitVec.toInt_eq_toNat_bmod, BitVec.toNat_sub, BitVec.toNat_ofNat, BitVec.toNat_ofNat, Int.bmod_def]
    omega
  have hp : (0#32).slt (BitVec.ofNat 32 n - BitVec.ofNat 32 (k * 4 + 3)) = decide (k * 4 + 3 < n) := by
    rw [BitVec.slt, e]; simp; omega
  have c3 : ((3 : Fin 4) : Nat) = 3 := rfl
  simp only [L4.at, ramp4_state]
  rw [L4.start]
  simp only [c3, hp, toF_ofNat n hn]
  by_cases h : k * 4 + 3 < n
  · have h' : k * 4 + 4 ≤ n := h
    simp only [h, decide_true, if_true, rampSpec, h']
    rw [mul_div_cancel_left₀ _ h4]
    push_cast
    ring
  · simp [h]

/-- **C28 fails for retriggers**: from 0 to 100 in 100 samples, retriggered after 8 samples (the last one put out was 7, the
next would have been 8): the new ramp starts at 12 -/
theorem line4_retrigger_skips :
    after4 (L4.init : L4 Rat) (.ramp 100 100#32) 7 = 7 ∧ after4 (L4.init : L4 Rat) (.ramp 100 100#32) 8 = 8 ∧
    after4 ((L4.init : L4 Rat).at 100 100 2) (.ramp 0 100#32) 0 = 12 := by
  have hs : (L4.init : L4 Rat).start = 0 := by rfl
  rw [show (100#32) = BitVec.ofNat 32 100 from rfl]
  rw [line4_ramp_partial _ _ 100 _ (by decide) (by omega), line4_ramp_partial _ _ 100 _ (by decide) (by omega),
    line4_ramp_partial _ _ 100 _ (by decide) (by omega)]
  have : ((L4.init : L4 Rat).at 100 100 2).start = 12 := by
    rw [line4_retrigger _ _ _ _ (by decide) (by omega), hs]
    norm_num [rampSpec]
  rw [hs, this]
  norm_num [rampSpec]

/-- the state `k` blocks after the ramp message, AVX -/
def L8.at [Field α] (o : L8 α) (v : α) (n k : Nat) : L8 α :=
  stateAt L8.step (o.onMessage (.ramp v (BitVec.ofNat 32 n))) (fun _ => ()) k

theorem pos64 (a b : BitVec 32) : (0#64).slt (a ++ b) = ((0#32).slt a || (a == 0#32 && b != 0#32)) := by
  rw [Bool.eq_iff_iff]
  simp only [BitVec.slt, Bool.or_eq_true, Bool.and_eq_true, decide_eq_true_eq, beq_iff_eq, bne_iff_ne, ne_eq,
    ← BitVec.toNat_inj, BitVec.toInt_eq_toNat_bmod, Int.bmod_def, BitVec.toNat_append, BitVec.toNat_ofNat]
  have ha := a.isLt
  have hb := b.isLt
  have : a.toNat <<< 32 ||| b.toNat = a.toNat * 2 ^ 32 + b.toNat := by
    rw [← Nat.shiftLeft_add_eq_or_of_lt hb, Nat.shiftLeft_eq]
  rw [this]
  omega

/-- AVX: the new ramp starts at sample `8k + 8` of the first line, if at least three samples remain, else at the target -/
theorem line8_retrigger [Field α] [CharZero α] (o : L8 α) (v : α) (n k : Nat) (hn : n < 2 ^ 31)
    (hk : k * 8 + 3 ≤ n + 2 ^ 31) :
    (o.at v n k).start = if k * 8 + 2 < n then o.start + ((k * 8 + 8 : Nat) : α) * ((v - o.start) / n) else v := by
  have h8 : (8 : α) ≠ 0 := by exact_mod_cast (Nat.cast_ne_zero (R := α)).mpr (by decide : (8 : Nat) ≠ 0)
  have e3 : (BitVec.ofNat 32 n - BitVec.ofNat 32 (k * 8 + 3)).toInt = (n : Int) - (k * 8 + 3 : Nat) := by
    rw [BitVec.toInt_eq_toNat_bmod, BitVec.toNat_sub, BitVec.toNat_ofNat, BitVec.toNat_ofNat, Int.bmod_def]
    omega
  have z3 : (BitVec.ofNat 32 n - BitVec.ofNat 32 (k * 8 + 3) == 0#32) = decide (n = k * 8 + 3) := by
    rw [Bool.eq_iff_iff]
    simp only [beq_iff_eq, ← BitVec.toNat_inj, BitVec.toNat_sub, BitVec.toNat_ofNat, decide_eq_true_eq]
    omega
  have z2 : n = k * 8 + 3 → (BitVec.ofNat 32 n - BitVec.ofNat 32 (k * 8 + 2) != 0#32) = true := by
    intro h
    simp only [bne_iff_ne, ne_eq, ← BitVec.toNat_inj, BitVec.toNat_sub, BitVec.toNat_ofNat]
    omega
  have hp : (0#64).slt ((BitVec.ofNat 32 n - BitVec.ofNat 32 (k * 8 + 3)) ++ (BitVec.ofNat 32 n - BitVec.ofNat 32 (k * 8 + 2)))
      = decide (k * 8 + 2 < n) := by
    rw [pos64, z3, BitVec.slt, e3]
    by_cases h : n = k * 8 + 3
    · rw [z2 h]; simp [h]
    · simp [h]; omega
  have c3 : ((3 : Fin 4) : Nat) = 3 := rfl
  have c2 : ((2 : Fin 4) : Nat) = 2 := rfl
  have c7 : ((7 : Fin 8) : Nat) = 7 := rfl
  simp only [L8.at, ramp8_state]
  rw [L8.start]
  simp only [c2, c3, c7, hp, toF_ofNat n hn]
  by_cases h : k * 8 + 2 < n
  · simp only [h, decide_true, if_true]
    rw [mul_div_cancel_left₀ _ h8]
    push_cast
    ring
  · simp [h]

/-- **C28 fails worse for AVX**: when three to seven samples of a line remain, the new ramp starts beyond the target.  From
0 to 3 in 3 samples, retriggered at once: it starts at 8 -/
theorem line8_overshoots : after8 ((L8.init : L8 Rat).at 3 3 0) (.ramp 0 100#32) 0 = 8 := by
  have hs : (L8.init : L8 Rat).start = 0 := by rfl
  rw [show (100#32) = BitVec.ofNat 32 100 from rfl, line8_ramp_partial _ _ 100 _ (by decide) (by omega)]
  have : ((L8.init : L8 Rat).at 3 3 0).start = 8 := by
    rw [line8_retrigger _ _ _ _ (by decide) (by omega), hs]
    norm_num
  rw [this]
  norm_num [rampSpec]

/-! ### scalar -/

theorem ramp1_state [Field α] (o : L1 α) (v : α) (n : Nat) (hn : n < 2 ^ 31) (k : Nat) (hk : k ≤ n + 2 ^ 31) :
    (o.onMessage (.ramp v (BitVec.ofNat 32 n))).run k =
      some ⟨n - k, o.start + (k : α) * ((v - o.start) / n), (v - o.start) / n, v⟩ := by
  have e : (BitVec.ofNat 32 n).toInt = (n : Int) := by
    rw [BitVec.toInt_eq_toNat_bmod, BitVec.toNat_ofNat, Int.bmod_def]; omega
  induction k with
  | zero => simp [L1.run, L1.onMessage, toF_ofNat n hn, e]
  | succ k ih =>
    rw [L1.run, ih (by omega)]
    simp only [Option.bind_some, L1.step]
    rw [if_neg (by omega)]
    simp only [Option.map_some]
    congr 2
    · push_cast; ring
    · push_cast; ring

/-- **C28**, scalar: the same line, until the counter would overflow -/
theorem line1_ramp_partial [Field α] (o : L1 α) (v : α) (n i : Nat) (hn : n < 2 ^ 31) (hi : i < n + 2 ^ 31) :
    (o.onMessage (.ramp v (BitVec.ofNat 32 n))).out i = some (rampSpec o.start v n i) := by
  rw [L1.out, ramp1_state o v n hn i (by omega)]
  simp only [Option.bind_some, L1.step]
  rw [if_neg (by omega)]
  simp only [Option.map_some, rampSpec]
  by_cases h : i ≤ n
  · rw [if_neg (by omega), if_pos h]
  · rw [if_pos (by omega), if_neg h]

/-- **C28 fails in the long run**, scalar: undefined behaviour 2^31 samples after the target -/
theorem line1_overflow [Field α] (o : L1 α) (v : α) (n i : Nat) (hn : n < 2 ^ 31) (hi : i = n + 2 ^ 31) :
    (o.onMessage (.ramp v (BitVec.ofNat 32 n))).out i = none := by
  rw [L1.out, ramp1_state o v n hn i (by omega)]
  simp only [Option.bind_some, L1.step]
  rw [if_pos (by omega)]
  rfl

/-- where a new ramp starts, scalar: two samples ahead of the one last put out -/
theorem line1_retrigger [Field α] (o : L1 α) (v : α) (n k : Nat) (hn : n < 2 ^ 31) (hk : k ≤ n + 2 ^ 31) :
    ((o.onMessage (.ramp v (BitVec.ofNat 32 n))).run k).map L1.start =
      some (if k < n then rampSpec o.start v n (k + 1) else v) := by
  rw [ramp1_state o v n hn k hk]
  rw [Option.map_some, L1.start]
  dsimp only
  congr 1
  by_cases h : k < n
  · rw [if_pos (by omega), if_pos h, rampSpec, if_pos (by omega)]
    push_cast
    ring
  · rw [if_neg (by omega), if_neg h]

end Verif.Line
