import Verif.Binop
import Mathlib.Tactic.Linarith
import Mathlib.Tactic.Ring
import Mathlib.Algebra.Order.Field.Basic
import Mathlib.Data.Rat.Floor
import Mathlib.Data.List.Induction
import Mathlib.Algebra.Order.Group.Unbundled.Abs
/-! C20: what the two-operand objects of the control domain compute, for which operands they are undefined, and which
operand they use after any history of messages. -/
namespace Verif.Binop
open Verif.Msg (R Err)

/-! ### specification -/

/-- `n` is `q` rounded toward zero -/
def Truncates (q : Rat) (n : Int) : Prop :=
  (0 ≤ q ∧ (n : Rat) ≤ q ∧ q < n + 1) ∨ (q < 0 ∧ q ≤ n ∧ (n : Rat) - 1 < q)

/-- `q` can be converted to a 32-bit `int` -/
def FitsInt (q : Rat) : Prop := -2 ^ 31 - 1 < q ∧ q < 2 ^ 31

/-- the only representable quotient problem of 32-bit division -/
def Overflows (f k : Rat) : Prop := Truncates f (-2 ^ 31) ∧ Truncates k (-1)

/-- the operands for which the C program is undefined -/
def Faults (op : Op) (f k : Rat) : Prop :=
  match op with
  | .intDiv | .modBi => ¬ FitsInt k ∨ (1 ≤ |k| ∧ (¬ FitsInt f ∨ Overflows f k))
  | .modUni => k ≠ 0 ∧ (¬ FitsInt k ∨ ¬ FitsInt f ∨ |k| < 1 ∨ Overflows f k)
  | .shl => ¬ FitsInt f ∨ ¬ FitsInt k ∨
      ¬ ∃ a b : Nat, Truncates f a ∧ Truncates k b ∧ b < 32 ∧ a * 2 ^ b < 2 ^ 31
  | .shr => ¬ FitsInt f ∨ ¬ FitsInt k ∨ ¬ ∃ b : Nat, Truncates k b ∧ b < 32
  | .band | .bxor | .bor => ¬ FitsInt f ∨ ¬ FitsInt k
  | _ => False

/-- what each operator should give -/
def Means (pow atan2 : Rat → Rat → Rat) (op : Op) (f k r : Rat) : Prop :=
  match op with
  | .add => r = f + k
  | .sub => r = f - k
  | .mul => r = f * k
  | .div => (k = 0 → r = 0) ∧ (k ≠ 0 → r * k = f)
  | .intDiv => (|k| < 1 → r = 0) ∧
      (1 ≤ |k| → ∃ a b q m : Int, Truncates f a ∧ Truncates k b ∧ r = q ∧
        a = b * q + m ∧ |m| < |b| ∧ (0 ≤ a → 0 ≤ m) ∧ (a ≤ 0 → m ≤ 0))
  | .modBi => (|k| < 1 → r = 0) ∧
      (1 ≤ |k| → ∃ a b q m : Int, Truncates f a ∧ Truncates k b ∧ r = m ∧
        a = b * q + m ∧ |m| < |b| ∧ (0 ≤ a → 0 ≤ m) ∧ (a ≤ 0 → m ≤ 0))
  | .modUni => (k = 0 → r = 0) ∧ (k ≠ 0 → 0 ≤ r ∧ r < |k|) ∧
      ∀ a b : Int, f = a → k = b → b ≠ 0 → ∃ m : Int, r = m ∧ b ∣ a - m
  | .shl => ∃ a b : Nat, Truncates f a ∧ Truncates k b ∧ r = ((a * 2 ^ b : Nat) : Rat)
  | .shr => ∃ (a : Int) (b : Nat), Truncates f a ∧ Truncates k b ∧
      ∃ m : Int, r = m ∧ m * 2 ^ b ≤ a ∧ a < (m + 1) * 2 ^ b
  | .band => ∃ a b m : BitVec 32, Truncates f a.toInt ∧ Truncates k b.toInt ∧ r = m.toInt ∧
      ∀ i, m.getLsbD i = (a.getLsbD i && b.getLsbD i)
  | .bxor => ∃ a b m : BitVec 32, Truncates f a.toInt ∧ Truncates k b.toInt ∧ r = m.toInt ∧
      ∀ i, m.getLsbD i = (a.getLsbD i ^^ b.getLsbD i)
  | .bor => ∃ a b m : BitVec 32, Truncates f a.toInt ∧ Truncates k b.toInt ∧ r = m.toInt ∧
      ∀ i, m.getLsbD i = (a.getLsbD i || b.getLsbD i)
  | .eq => (r = 1 ∧ f = k) ∨ (r = 0 ∧ f ≠ k)
  | .neq => (r = 1 ∧ f ≠ k) ∨ (r = 0 ∧ f = k)
  | .land => (r = 1 ∧ f ≠ 0 ∧ k ≠ 0) ∨ (r = 0 ∧ (f = 0 ∨ k = 0))
  | .lor => (r = 1 ∧ (f ≠ 0 ∨ k ≠ 0)) ∨ (r = 0 ∧ f = 0 ∧ k = 0)
  | .lt => (r = 1 ∧ f < k) ∨ (r = 0 ∧ k ≤ f)
  | .le => (r = 1 ∧ f ≤ k) ∨ (r = 0 ∧ k < f)
  | .gt => (r = 1 ∧ k < f) ∨ (r = 0 ∧ f ≤ k)
  | .ge => (r = 1 ∧ k ≤ f) ∨ (r = 0 ∧ f < k)
  | .max => f ≤ r ∧ k ≤ r ∧ (r = f ∨ r = k)
  | .min => r ≤ f ∧ r ≤ k ∧ (r = f ∨ r = k)
  | .pow => (f ≤ 0 → r = 0) ∧ (0 < f → r = pow f k)
  | .atan2 => (f = 0 ∧ k = 0 → r = 0) ∧ (¬ (f = 0 ∧ k = 0) → r = atan2 f k)

/-! ### conversions -/

theorem trunc_truncates (q : Rat) : Truncates q (trunc q) := by
  unfold trunc
  split
  · rename_i h
    left
    refine ⟨h, Rat.floor_le q, ?_⟩
    have := Rat.lt_floor_add_one q
    push_cast at this
    exact this
  · rename_i h
    right
    refine ⟨not_le.mp h, Rat.le_ceil, ?_⟩
    have := @Rat.ceil_lt q
    linarith

theorem truncates_iff {q : Rat} {n : Int} : Truncates q n ↔ trunc q = n := by
  constructor
  · intro h
    have h0 := trunc_truncates q
    rcases h with ⟨a, b, c⟩ | ⟨a, b, c⟩ <;> rcases h0 with ⟨a', b', c'⟩ | ⟨a', b', c'⟩
    · have h1 : ((trunc q : Int) : Rat) < ((n + 1 : Int) : Rat) := by push_cast; linarith
      have h2 : (n : Rat) < ((trunc q + 1 : Int) : Rat) := by push_cast; linarith
      have h1 := Int.cast_lt.mp h1
      have h2 := Int.cast_lt.mp h2
      omega
    · linarith
    · linarith
    · have h1 : ((trunc q : Int) : Rat) < ((n + 1 : Int) : Rat) := by push_cast; linarith
      have h2 : (n : Rat) < ((trunc q + 1 : Int) : Rat) := by push_cast; linarith
      have h1 := Int.cast_lt.mp h1
      have h2 := Int.cast_lt.mp h2
      omega
  · rintro rfl
    exact trunc_truncates q

theorem trunc_int (n : Int) : trunc (n : Rat) = n := by
  rw [← truncates_iff]
  by_cases h : (0 : Rat) ≤ n
  · exact .inl ⟨h, le_refl _, by linarith⟩
  · exact .inr ⟨by linarith, le_refl _, by linarith⟩

theorem fits_iff (q : Rat) : FitsInt q ↔ -2 ^ 31 ≤ trunc q ∧ trunc q < 2 ^ 31 := by
  have h := trunc_truncates q
  unfold FitsInt
  constructor
  · rintro ⟨h1, h2⟩
    rcases h with ⟨a, b, c⟩ | ⟨a, b, c⟩
    · have h3 : ((trunc q : Int) : Rat) < ((2 ^ 31 : Int) : Rat) := by push_cast; linarith
      have h3 := Int.cast_lt.mp h3
      have h4 : ((-1 : Int) : Rat) < ((trunc q : Int) : Rat) := by push_cast; linarith
      have h4 := Int.cast_lt.mp h4
      omega
    · have h3 : ((trunc q : Int) : Rat) < ((1 : Int) : Rat) := by push_cast; linarith
      have h3 := Int.cast_lt.mp h3
      have h4 : ((-2 ^ 31 - 1 : Int) : Rat) < ((trunc q : Int) : Rat) := by push_cast; linarith
      have h4 := Int.cast_lt.mp h4
      omega
  · rintro ⟨h1, h2⟩
    have h1' : ((-2 ^ 31 : Int) : Rat) ≤ ((trunc q : Int) : Rat) := by exact_mod_cast h1
    have h2' : ((trunc q + 1: Int) : Rat) ≤ ((2 ^ 31 : Int) : Rat) := by exact_mod_cast h2
    push_cast at h1' h2'
    rcases h with ⟨a, b, c⟩ | ⟨a, b, c⟩
    · constructor <;> linarith
    · constructor <;> linarith

theorem toInt_fits {q : Rat} (h : FitsInt q) : toInt q = .ok (trunc q) := by
  unfold toInt
  rw [if_pos ((fits_iff q).mp h)]

theorem toInt_not_fits {q : Rat} (h : ¬ FitsInt q) : toInt q = .error .ub := by
  unfold toInt
  rw [if_neg (fun h' => h ((fits_iff q).mpr h'))]

theorem trunc_zero_iff (q : Rat) : trunc q = 0 ↔ |q| < 1 := by
  rw [← truncates_iff, abs_lt]
  unfold Truncates
  constructor
  · rintro (⟨a, b, c⟩ | ⟨a, b, c⟩) <;> push_cast at * <;> constructor <;> linarith
  · rintro ⟨a, b⟩
    by_cases h : 0 ≤ q
    · left; push_cast; exact ⟨h, h, by linarith⟩
    · right; push_cast; exact ⟨by linarith, by linarith, by linarith⟩

theorem abs_trunc_le (q : Rat) : |(trunc q : Rat)| ≤ |q| := by
  have h := trunc_truncates q
  rcases h with ⟨a, b, c⟩ | ⟨a, b, c⟩
  · have : (0 : Rat) ≤ (trunc q : Rat) := by
      have h4 : ((-1 : Int) : Rat) < ((trunc q : Int) : Rat) := by push_cast; linarith
      have h4 := Int.cast_lt.mp h4
      have : 0 ≤ trunc q := by omega
      exact_mod_cast this
    rw [abs_of_nonneg this, abs_of_nonneg a]; exact b
  · have : (trunc q : Rat) ≤ 0 := by
      have h4 : ((trunc q : Int) : Rat) < ((1 : Int) : Rat) := by push_cast; linarith
      have h4 := Int.cast_lt.mp h4
      have : trunc q ≤ 0 := by omega
      exact_mod_cast this
    rw [abs_of_nonpos this, abs_of_neg a]; linarith

/-! ### each operator -/

theorem tdiv_spec (a b : Int) (hb : b ≠ 0) :
    a = b * a.tdiv b + a.tmod b ∧ |a.tmod b| < |b| ∧ (0 ≤ a → 0 ≤ a.tmod b) ∧ (a ≤ 0 → a.tmod b ≤ 0) := by
  refine ⟨(Int.mul_tdiv_add_tmod a b).symm, ?_, fun h => Int.tmod_nonneg b h, ?_⟩
  · have : (a.tmod b).natAbs < b.natAbs := by
      rw [Int.natAbs_tmod]
      exact Nat.mod_lt _ (by omega)
    rw [Int.abs_eq_natAbs, Int.abs_eq_natAbs]
    omega
  · intro h
    have h0 := Int.tmod_nonneg (a := -a) b (by omega)
    rw [Int.neg_tmod] at h0
    omega

theorem bitvec_of_fits {q : Rat} (h : FitsInt q) : (BitVec.ofInt 32 (trunc q)).toInt = trunc q := by
  rw [fits_iff] at h
  rw [BitVec.toInt_ofInt, Int.bmod_eq_of_le] <;> omega

theorem not_trunc_zero {k : Rat} (h : 1 ≤ |k|) : trunc k ≠ 0 := by
  rw [Ne, trunc_zero_iff]; linarith

/-- **C20**, definedness: the C program is undefined exactly for the operands listed in `Faults`; all the operators but
integer division, the two remainders and the bit operations are defined for all operands -/
theorem binop_undefined_iff (pow atan2 : Rat → Rat → Rat) (op : Op) (f k : Rat) :
    perform pow atan2 op f k = .error .ub ↔ Faults op f k := by
  have overflow_iff : Overflows f k ↔ trunc f = -2 ^ 31 ∧ trunc k = -1 := by
    unfold Overflows; rw [truncates_iff, truncates_iff]
  cases op <;> simp only [perform, Faults]
  case intDiv =>
    by_cases hk : FitsInt k
    · rw [toInt_fits hk]
      by_cases h1 : 1 ≤ |k|
      · have := not_trunc_zero h1
        simp only [bind, Except.bind]
        rw [if_pos this]
        by_cases hf : FitsInt f
        · rw [toInt_fits hf]
          simp only [cDiv]
          by_cases h : trunc f = -2 ^ 31 ∧ trunc k = -1
          · rw [if_pos (.inr h)]
            simp only [true_iff]
            exact .inr ⟨h1, .inr (overflow_iff.mpr h)⟩
          · rw [if_neg (by rintro (h' | h') <;> contradiction)]
            simp only [reduceCtorEq, false_iff]
            rintro (h' | ⟨-, h' | h'⟩)
            · exact h' hk
            · exact h' hf
            · exact h (overflow_iff.mp h')
        · rw [toInt_not_fits hf]; simp [hk, hf, h1]
      · have : trunc k = 0 := (trunc_zero_iff k).mpr (by linarith)
        simp only [bind, Except.bind]
        rw [if_neg (by simp [this])]
        simp [hk, h1]
    · rw [toInt_not_fits hk]; simp [bind, Except.bind, hk]
  case modBi =>
    by_cases hk : FitsInt k
    · rw [toInt_fits hk]
      by_cases h1 : 1 ≤ |k|
      · have := not_trunc_zero h1
        simp only [bind, Except.bind]
        rw [if_pos this]
        by_cases hf : FitsInt f
        · rw [toInt_fits hf]
          simp only [cMod]
          by_cases h : trunc f = -2 ^ 31 ∧ trunc k = -1
          · rw [if_pos (.inr h)]
            simp only [true_iff]
            exact .inr ⟨h1, .inr (overflow_iff.mpr h)⟩
          · rw [if_neg (by rintro (h' | h') <;> contradiction)]
            simp only [reduceCtorEq, false_iff]
            rintro (h' | ⟨-, h' | h'⟩)
            · exact h' hk
            · exact h' hf
            · exact h (overflow_iff.mp h')
        · rw [toInt_not_fits hf]; simp [hk, hf, h1]
      · have : trunc k = 0 := (trunc_zero_iff k).mpr (by linarith)
        simp only [bind, Except.bind]
        rw [if_neg (by simp [this])]
        simp [hk, h1]
    · rw [toInt_not_fits hk]; simp [bind, Except.bind, hk]
  case modUni =>
    by_cases k0 : k = 0
    · simp [k0, bind, Except.bind]
    · rw [if_neg k0]
      by_cases hf : FitsInt f
      · rw [toInt_fits hf]
        by_cases hk : FitsInt k
        · rw [toInt_fits hk]
          simp only [bind, Except.bind, cMod, ← trunc_zero_iff]
          by_cases h : trunc k = 0 ∨ trunc f = -2 ^ 31 ∧ trunc k = -1
          · rw [if_pos h]
            simp only [true_iff]
            exact ⟨k0, .inr (.inr (h.imp id overflow_iff.mpr))⟩
          · rw [if_neg h]
            simp only [reduceCtorEq, false_iff]
            rintro ⟨-, h' | h' | h'⟩
            · exact h' hk
            · exact h' hf
            · exact h (h'.imp id overflow_iff.mp)
        · rw [toInt_not_fits hk]; simp [bind, Except.bind, hk, k0]
      · rw [toInt_not_fits hf]; simp [bind, Except.bind, hf, k0]
  case shl =>
    by_cases hf : FitsInt f
    · rw [toInt_fits hf]
      by_cases hk : FitsInt k
      · rw [toInt_fits hk]
        simp only [bind, Except.bind, cShl]
        have : (0 ≤ trunc k ∧ trunc k < 32 ∧ 0 ≤ trunc f ∧ trunc f * 2 ^ (trunc k).toNat < 2 ^ 31) ↔
            ∃ a b : Nat, Truncates f a ∧ Truncates k b ∧ b < 32 ∧ a * 2 ^ b < 2 ^ 31 := by
          constructor
          · rintro ⟨h1, h2, h3, h4⟩
            refine ⟨(trunc f).toNat, (trunc k).toNat, ?_, ?_, by omega, ?_⟩
            · rw [truncates_iff]; omega
            · rw [truncates_iff]; omega
            · have : ((trunc f).toNat : Int) = trunc f := by omega
              rw [← this] at h4
              exact_mod_cast h4
          · rintro ⟨a, b, ha, hb, h1, h2⟩
            rw [truncates_iff] at ha hb
            rw [ha, hb]
            refine ⟨by omega, by omega, by omega, ?_⟩
            rw [Int.toNat_natCast]
            exact_mod_cast h2
        rw [← this]
        by_cases h : (0 ≤ trunc k ∧ trunc k < 32 ∧ 0 ≤ trunc f ∧ trunc f * 2 ^ (trunc k).toNat < 2 ^ 31)
        · rw [if_pos h]
          simp only [reduceCtorEq, false_iff]
          rintro (h' | h' | h') <;> exact h' (by assumption)
        · rw [if_neg h]; simp only [true_iff]; exact .inr (.inr h)
      · rw [toInt_not_fits hk]; simp [bind, Except.bind, hk]
    · rw [toInt_not_fits hf]; simp [bind, Except.bind, hf]
  case shr =>
    by_cases hf : FitsInt f
    · rw [toInt_fits hf]
      by_cases hk : FitsInt k
      · rw [toInt_fits hk]
        simp only [bind, Except.bind, cShr]
        have : (0 ≤ trunc k ∧ trunc k < 32) ↔ ∃ b : Nat, Truncates k b ∧ b < 32 := by
          constructor
          · rintro ⟨h1, h2⟩
            refine ⟨(trunc k).toNat, ?_, by omega⟩
            rw [truncates_iff]; omega
          · rintro ⟨b, hb, h1⟩
            rw [truncates_iff] at hb
            omega
        rw [← this]
        by_cases h : (0 ≤ trunc k ∧ trunc k < 32)
        · rw [if_pos h]
          simp only [reduceCtorEq, false_iff]
          rintro (h' | h' | h') <;> exact h' (by assumption)
        · rw [if_neg h]; simp only [true_iff]; exact .inr (.inr h)
      · rw [toInt_not_fits hk]; simp [bind, Except.bind, hk]
    · rw [toInt_not_fits hf]; simp [bind, Except.bind, hf]
  all_goals try (by_cases hf : FitsInt f)
  all_goals try (by_cases hk : FitsInt k)
  all_goals try rw [toInt_fits hf]
  all_goals try rw [toInt_fits hk]
  all_goals try rw [toInt_not_fits hf]
  all_goals try rw [toInt_not_fits hk]
  all_goals simp [bind, Except.bind, *]

/-- the only failure is undefined behaviour: there is no assertion to violate -/
theorem perform_error {pow atan2 : Rat → Rat → Rat} {op : Op} {f k : Rat} {e : Err}
    (h : perform pow atan2 op f k = .error e) : e = .ub := by
  have bindUb : ∀ {α β : Type} {x : R α} {g : α → R β}, (∀ e, x = .error e → e = .ub) →
      (∀ a e, g a = .error e → e = .ub) → ∀ e, x.bind g = .error e → e = .ub := by
    intro α β x g hx hg e he
    cases x with
    | error e' => simp only [Except.bind, Except.error.injEq] at he; subst he; exact hx _ rfl
    | ok a => exact hg a e he
  have tI : ∀ q e, toInt q = .error e → e = .ub := by
    intro q e he
    by_cases hq : FitsInt q
    · rw [toInt_fits hq] at he; cases he
    · rw [toInt_not_fits hq] at he; cases he; rfl
  have ite : ∀ {c : Prop} [Decidable c] {α : Type} {x y : R α}, (∀ e, x = .error e → e = .ub) →
      (∀ e, y = .error e → e = .ub) → ∀ e, (if c then x else y) = .error e → e = .ub := by
    intro c _ α x y hx hy e he
    split at he
    · exact hx e he
    · exact hy e he
  have okk : ∀ {α : Type} (a : α) (e : Err), (Except.ok a : R α) = .error e → e = .ub := by
    intro α a e he; cases he
  have er : ∀ {α : Type} (e : Err), (Except.error Err.ub : R α) = .error e → e = .ub := by
    intro α e he; cases he; rfl
  have dv : ∀ a b e, cDiv a b = .error e → e = .ub := fun a b => ite er (okk _)
  have md : ∀ a b e, cMod a b = .error e → e = .ub := fun a b => ite er (okk _)
  have sl : ∀ a b e, cShl a b = .error e → e = .ub := fun a b => ite (okk _) er
  have sr : ∀ a b e, cShr a b = .error e → e = .ub := fun a b => ite (okk _) er
  suffices hs : ∀ e, perform pow atan2 op f k = .error e → e = .ub from hs _ h
  clear h
  cases op <;> simp only [perform, bind]
  all_goals repeat first
    | exact okk _
    | exact tI _
    | exact dv _ _
    | exact md _ _
    | exact sl _ _
    | exact sr _ _
    | refine bindUb ?_ ?_
    | refine ite ?_ ?_
    | intro _ _ h; exact okk _ _ h
    | intro a

theorem tv_true {b : Bool} (h : b = true) : tv b = 1 := by rw [h]; rfl
theorem tv_false {b : Bool} (h : b = false) : tv b = 0 := by rw [h]; rfl

/-- **C20**, values: for every operator and every pair of operands, outside `Faults` the object computes what the
operator means -/
theorem binop_computes (pow atan2 : Rat → Rat → Rat) (op : Op) (f k : Rat) (h : ¬ Faults op f k) :
    ∃ r, perform pow atan2 op f k = .ok r ∧ Means pow atan2 op f k r := by
  have hok : ∃ r, perform pow atan2 op f k = .ok r := by
    cases hp : perform pow atan2 op f k with
    | ok r => exact ⟨r, rfl⟩
    | error e =>
      have := perform_error hp
      subst this
      exact absurd ((binop_undefined_iff pow atan2 op f k).mp hp) h
  obtain ⟨r, hr⟩ := hok
  refine ⟨r, hr, ?_⟩
  cases op <;> simp only [perform] at hr
  case div =>
    cases hr
    refine ⟨fun h => by simp [h], fun h => ?_⟩
    rw [if_pos h]; exact div_mul_cancel₀ f h
  case intDiv =>
    simp only [Faults, not_or, not_not, not_and] at h
    rw [toInt_fits h.1] at hr
    simp only [bind, Except.bind] at hr
    refine ⟨fun h1 => ?_, fun h1 => ?_⟩
    · rw [if_neg (by rw [not_not, trunc_zero_iff]; exact h1)] at hr
      cases hr; rfl
    · have hn := not_trunc_zero h1
      rw [if_pos hn, toInt_fits (h.2 h1).1] at hr
      simp only [cDiv] at hr
      rw [if_neg ?_] at hr
      · cases hr
        exact ⟨trunc f, trunc k, _, _, trunc_truncates f, trunc_truncates k, rfl, tdiv_spec _ _ hn⟩
      · rintro (h2 | h2)
        · exact hn h2
        · exact (h.2 h1).2 ⟨truncates_iff.mpr h2.1, truncates_iff.mpr h2.2⟩
  case modBi =>
    simp only [Faults, not_or, not_not, not_and] at h
    rw [toInt_fits h.1] at hr
    simp only [bind, Except.bind] at hr
    refine ⟨fun h1 => ?_, fun h1 => ?_⟩
    · rw [if_neg (by rw [not_not, trunc_zero_iff]; exact h1)] at hr
      cases hr; rfl
    · have hn := not_trunc_zero h1
      rw [if_pos hn, toInt_fits (h.2 h1).1] at hr
      simp only [cMod] at hr
      rw [if_neg ?_] at hr
      · cases hr
        exact ⟨trunc f, trunc k, _, _, trunc_truncates f, trunc_truncates k, rfl, tdiv_spec _ _ hn⟩
      · rintro (h2 | h2)
        · exact hn h2
        · exact (h.2 h1).2 ⟨truncates_iff.mpr h2.1, truncates_iff.mpr h2.2⟩
  case modUni =>
    by_cases k0 : k = 0
    · subst k0
      simp only [if_true, bind, Except.bind, Except.ok.injEq] at hr
      simp at hr
      subst hr
      exact ⟨fun _ => rfl, fun h => absurd rfl h, fun a b _ h1 h2 => absurd (by exact_mod_cast h1.symm) h2⟩
    · simp only [Faults, not_or, not_not, not_and, not_lt] at h
      obtain ⟨hk, hf, h1, ho⟩ := h k0
      rw [if_neg k0, toInt_fits hf, toInt_fits hk] at hr
      have hn := not_trunc_zero h1
      simp only [bind, Except.bind, cMod] at hr
      rw [if_neg ?_] at hr
      · simp only [Except.ok.injEq] at hr
        have hs := tdiv_spec (trunc f) (trunc k) hn
        have hl : |(((trunc f).tmod (trunc k) : Int) : Rat)| < |k| := by
          refine lt_of_lt_of_le ?_ (abs_trunc_le k)
          have := hs.2.1
          exact_mod_cast this
        rw [abs_lt] at hl
        have habs : (if k < 0 then -k else k) = |k| := by
          split
          · rename_i h; rw [abs_of_neg h]
          · rename_i h; rw [abs_of_nonneg (not_lt.mp h)]
        rw [habs] at hr
        refine ⟨fun h => absurd h k0, fun _ => ?_, ?_⟩
        · rw [← hr]
          split
          · constructor <;> linarith
          · rename_i hg
            exact ⟨not_lt.mp hg, hl.2⟩
        · rintro a b rfl rfl hb
          rw [trunc_int, trunc_int] at hr
          rw [trunc_int, trunc_int] at hs
          split at hr
          · refine ⟨a.tmod b + |b|, ?_, ?_⟩
            · rw [← hr]; push_cast; rfl
            · have e : a - (a.tmod b + |b|) = b * a.tdiv b - |b| := by
                have := hs.1
                omega
              rw [e]
              exact Int.dvd_sub ⟨_, rfl⟩ ((dvd_abs b b).mpr (dvd_refl b))
          · refine ⟨a.tmod b, hr.symm, a.tdiv b, ?_⟩
            have := hs.1
            omega
      · rintro (h2 | h2)
        · exact hn h2
        · exact ho ⟨truncates_iff.mpr h2.1, truncates_iff.mpr h2.2⟩
  case shl =>
    simp only [Faults, not_or, not_not] at h
    obtain ⟨hf, hk, a, b, ha, hb, h1, h2⟩ := h
    refine ⟨a, b, ha, hb, ?_⟩
    rw [truncates_iff] at ha hb
    rw [toInt_fits hf, toInt_fits hk] at hr
    simp only [bind, Except.bind, cShl, ha, hb, Int.toNat_natCast] at hr
    rw [if_pos ⟨by omega, by omega, by omega, by exact_mod_cast h2⟩] at hr
    cases hr
    push_cast
    rfl
  case shr =>
    simp only [Faults, not_or, not_not] at h
    obtain ⟨hf, hk, b, hb, h1⟩ := h
    refine ⟨trunc f, b, trunc_truncates f, hb, ?_⟩
    rw [truncates_iff] at hb
    rw [toInt_fits hf, toInt_fits hk] at hr
    simp only [bind, Except.bind, cShr, hb, Int.toNat_natCast] at hr
    rw [if_pos ⟨by omega, by omega⟩] at hr
    cases hr
    refine ⟨_, rfl, ?_⟩
    rw [Int.shiftRight_eq_div_pow]
    have hp : (0 : Int) < 2 ^ b := by positivity
    constructor
    · exact Int.ediv_mul_le _ (by push_cast; omega)
    · have := Int.lt_ediv_add_one_mul_self (trunc f) (by push_cast; exact hp : (0 : Int) < ((2 ^ b : Nat) : Int))
      push_cast at this ⊢
      exact this
  case band =>
    simp only [Faults, not_or, not_not] at h
    rw [toInt_fits h.1, toInt_fits h.2] at hr
    cases hr
    refine ⟨_, _, _, ?_, ?_, rfl, fun i => BitVec.getLsbD_and⟩
    · rw [bitvec_of_fits h.1]; exact trunc_truncates f
    · rw [bitvec_of_fits h.2]; exact trunc_truncates k
  case bxor =>
    simp only [Faults, not_or, not_not] at h
    rw [toInt_fits h.1, toInt_fits h.2] at hr
    cases hr
    refine ⟨_, _, _, ?_, ?_, rfl, fun i => BitVec.getLsbD_xor⟩
    · rw [bitvec_of_fits h.1]; exact trunc_truncates f
    · rw [bitvec_of_fits h.2]; exact trunc_truncates k
  case bor =>
    simp only [Faults, not_or, not_not] at h
    rw [toInt_fits h.1, toInt_fits h.2] at hr
    cases hr
    refine ⟨_, _, _, ?_, ?_, rfl, fun i => BitVec.getLsbD_or⟩
    · rw [bitvec_of_fits h.1]; exact trunc_truncates f
    · rw [bitvec_of_fits h.2]; exact trunc_truncates k
  all_goals cases hr
  all_goals simp only [Means]
  case eq => by_cases h : f = k <;> simp [tv, h]
  case neq => by_cases h : f = k <;> simp [tv, h]
  case land => by_cases h : f = 0 <;> by_cases h' : k = 0 <;> simp [h, h']
  case lor => by_cases h : f = 0 <;> by_cases h' : k = 0 <;> simp [h, h']
  case lt => rcases lt_or_ge f k with h | h <;> simp [tv, h, not_lt.mpr, not_le.mpr]
  case le => rcases le_or_gt f k with h | h <;> simp [tv, h, not_le.mpr, not_lt.mpr]
  case gt => rcases lt_or_ge k f with h | h <;> simp [tv, h, not_lt.mpr, not_le.mpr]
  case ge => rcases le_or_gt k f with h | h <;> simp [tv, h, not_le.mpr, not_lt.mpr]
  case max =>
    split
    · rename_i h; exact ⟨h, le_refl _, .inr rfl⟩
    · rename_i h; exact ⟨le_refl _, (not_le.mp h).le, .inl rfl⟩
  case min =>
    split
    · rename_i h; exact ⟨le_refl _, h, .inl rfl⟩
    · rename_i h; exact ⟨(not_le.mp h).le, le_refl _, .inr rfl⟩
  case pow => exact ⟨fun h => by rw [if_neg (not_lt.mpr h)], fun h => by rw [if_pos h]⟩
  case atan2 => exact ⟨fun h => by rw [if_pos h], fun h => by rw [if_neg h]⟩

/-- non-vacuity: `-7 mod 3` is `2`, `-7 % 3` is `-1`, `-7 / 2` as integers is `-3` -/
example : ¬ Faults .modUni (-7) 3 ∧ (perform (fun _ _ => 0) (fun _ _ => 0) .modUni (-7) 3).toOption = some 2 ∧
    (perform (fun _ _ => 0) (fun _ _ => 0) .modBi (-7) 3).toOption = some (-1) ∧
    (perform (fun _ _ => 0) (fun _ _ => 0) .intDiv (-7) 2).toOption = some (-3) := by
  refine ⟨?_, by decide +kernel, by decide +kernel, by decide +kernel⟩
  rw [← binop_undefined_iff (fun _ _ => 0) (fun _ _ => 0)]
  have : (perform (fun _ _ => 0) (fun _ _ => 0) .modUni (-7) 3).toOption = some 2 := by decide +kernel
  intro h
  rw [h] at this
  cases this

/-- **F12**: `[mod]` with any operand strictly between -1 and 1 other than 0 divides by the integer zero, although
`[mod 0]` is guarded and `[%]` with the same operand gives `0` -/
theorem mod_fraction_divides_by_zero (pow atan2 : Rat → Rat → Rat) (f k : Rat) (hk : k ≠ 0) (h1 : |k| < 1) :
    perform pow atan2 .modUni f k = .error .ub ∧ perform pow atan2 .modBi f k = .ok 0 := by
  refine ⟨(binop_undefined_iff _ _ _ _ _).mpr ⟨hk, .inr (.inr (.inl h1))⟩, ?_⟩
  obtain ⟨r, hr, hm⟩ := binop_computes pow atan2 .modBi f k (by
    simp only [Faults, not_or, not_not, not_and]
    refine ⟨?_, fun h => absurd h1 (not_lt.mpr h)⟩
    rw [abs_lt] at h1
    constructor <;> linarith [h1.1, h1.2])
  rw [hr, hm.1 h1]

/-- a left shift of a negative number is undefined too, for every shift -/
theorem shl_negative_undefined (pow atan2 : Rat → Rat → Rat) (f k : Rat) (hf : f ≤ -1) :
    perform pow atan2 .shl f k = .error .ub := by
  rw [binop_undefined_iff]
  refine .inr (.inr ?_)
  rintro ⟨a, b, ha, -⟩
  have : (0 : Rat) ≤ ((a : Int) : Rat) := by exact_mod_cast Nat.zero_le a
  rcases ha with ⟨h, -⟩ | ⟨h, h1, h2⟩
  · linarith
  · have : ((a : Int) : Rat) < ((0 + 1 : Int) : Rat) := by push_cast at *; linarith
    have hc := Int.cast_lt.mp this
    have : a = 0 := by omega
    subst this
    norm_num at h2
    linarith

/-! ### histories -/

/-- the operand after a history, by looking back: the latest message that sets it decides -/
def Sets (e : Ev) (k : Rat) : Prop :=
  (e.letIn = 1 ∧ e.e0 = .float k) ∨ (e.letIn = 0 ∧ (∃ f, e.e0 = .float f) ∧ e.e1 = some (.float k))

/-- `k` is the operand in force after the messages `es`, when it was `k0` at the start -/
def Operand (k0 : Rat) (es : List Ev) (k : Rat) : Prop :=
  (∃ pre e post, es = pre ++ e :: post ∧ Sets e k ∧ ∀ x ∈ post, ∀ k', ¬ Sets x k') ∨
  (k = k0 ∧ ∀ x ∈ es, ∀ k', ¬ Sets x k')

theorem onMessage_spec {pow atan2 : Rat → Rat → Rat} {op : Op} {k k' : Rat} {e : Ev} {o : Option Rat}
    (h : onMessage pow atan2 op k e = .ok (k', o)) :
    (Sets e k' ∨ (k' = k ∧ ∀ x, ¬ Sets e x)) ∧
    (∀ r, o = some r ↔ ∃ f, e.letIn = 0 ∧ e.e0 = .float f ∧ perform pow atan2 op f k' = .ok r) := by
  obtain ⟨l, e0, e1⟩ := e
  unfold onMessage at h
  split at h
  · rename_i f hl he
    simp only at hl he
    subst hl he
    cases e1 with
    | none =>
      simp only [bind, Except.bind] at h
      cases hp : perform pow atan2 op f k with
      | error x => rw [hp] at h; cases h
      | ok r =>
        rw [hp] at h
        cases h
        refine ⟨.inr ⟨rfl, ?_⟩, ?_⟩
        · rintro x (⟨h, -⟩ | ⟨-, -, h⟩)
          · cases h
          · cases h
        · intro r'
          constructor
          · intro h; cases h; exact ⟨f, rfl, rfl, hp⟩
          · rintro ⟨f', -, h, h'⟩; cases h; rw [hp] at h'; cases h'; rfl
    | some el =>
      cases el with
      | other =>
        simp only [bind, Except.bind] at h
        cases hp : perform pow atan2 op f k with
        | error x => rw [hp] at h; cases h
        | ok r =>
          rw [hp] at h
          cases h
          refine ⟨.inr ⟨rfl, ?_⟩, ?_⟩
          · rintro x (⟨h, -⟩ | ⟨-, -, h⟩)
            · cases h
            · cases h
          · intro r'
            constructor
            · intro h; cases h; exact ⟨f, rfl, rfl, hp⟩
            · rintro ⟨f', -, h, h'⟩; cases h; rw [hp] at h'; cases h'; rfl
      | float q =>
        simp only [bind, Except.bind] at h
        cases hp : perform pow atan2 op f q with
        | error x => rw [hp] at h; cases h
        | ok r =>
          rw [hp] at h
          cases h
          refine ⟨.inl (.inr ⟨rfl, ⟨f, rfl⟩, rfl⟩), ?_⟩
          intro r'
          constructor
          · intro h; cases h; exact ⟨f, rfl, rfl, hp⟩
          · rintro ⟨f', -, h, h'⟩; cases h; rw [hp] at h'; cases h'; rfl
  · rename_i f hl he
    simp only at hl he
    subst hl he
    cases h
    refine ⟨.inl (.inl ⟨rfl, rfl⟩), ?_⟩
    intro r
    constructor
    · intro h; cases h
    · rintro ⟨f, h, -⟩; cases h
  · rename_i h1 h2
    simp only at h1 h2
    cases h
    refine ⟨.inr ⟨rfl, ?_⟩, ?_⟩
    · rintro x (⟨h, h'⟩ | ⟨h, ⟨f, h'⟩, -⟩)
      · exact h2 _ h h'
      · exact h1 _ h h'
    · intro r
      constructor
      · intro h; cases h
      · rintro ⟨f, h, h', -⟩; exact absurd h' (h1 f h)

/-- the answer to a message, in terms of the messages received up to and including it -/
inductive Answers (pow atan2 : Rat → Rat → Rat) (op : Op) (k0 : Rat) : List Ev → List Rat → Prop
  | nil : Answers pow atan2 op k0 [] []
  | silent {es out e} : Answers pow atan2 op k0 es out → (¬ ∃ f, e.letIn = 0 ∧ e.e0 = .float f) →
      Answers pow atan2 op k0 (es ++ [e]) out
  | answer {es out e f k r} : Answers pow atan2 op k0 es out → e.letIn = 0 → e.e0 = .float f →
      Operand k0 (es ++ [e]) k → ¬ Faults op f k → Means pow atan2 op f k r →
      Answers pow atan2 op k0 (es ++ [e]) (out ++ [r])

theorem run_append {pow atan2 : Rat → Rat → Rat} {op : Op} (es es' : List Ev) (k : Rat) :
    run pow atan2 op k (es ++ es') =
      (do let (k1, o1) ← run pow atan2 op k es
          let (k2, o2) ← run pow atan2 op k1 es'
          .ok (k2, o1 ++ o2)) := by
  induction es generalizing k with
  | nil =>
    simp only [List.nil_append, run, bind, Except.bind]
    cases run pow atan2 op k es' <;> rfl
  | cons e es ih =>
    simp only [List.cons_append, run, bind, Except.bind]
    cases onMessage pow atan2 op k e with
    | error x => rfl
    | ok x =>
      simp only [ih, bind, Except.bind]
      cases run pow atan2 op x.1 es with
      | error x => rfl
      | ok y =>
        simp only
        cases run pow atan2 op y.1 es' with
        | error x => rfl
        | ok z => simp

theorem Operand.snoc {k0 k k' : Rat} {es : List Ev} {e : Ev} (h : Operand k0 es k)
    (hs : Sets e k' ∨ (k' = k ∧ ∀ x, ¬ Sets e x)) : Operand k0 (es ++ [e]) k' := by
  rcases hs with hs | ⟨rfl, hs⟩
  · exact .inl ⟨es, e, [], rfl, hs, by simp⟩
  · rcases h with ⟨pre, e', post, rfl, h1, h2⟩ | ⟨rfl, h1⟩
    · refine .inl ⟨pre, e', post ++ [e], by simp, h1, ?_⟩
      intro x hx k'
      rcases List.mem_append.mp hx with hx | hx
      · exact h2 x hx k'
      · rw [List.mem_singleton] at hx; subst hx; exact hs k'
    · refine .inr ⟨rfl, ?_⟩
      intro x hx k'
      rcases List.mem_append.mp hx with hx | hx
      · exact h1 x hx k'
      · rw [List.mem_singleton] at hx; subst hx; exact hs k'

/-- **C20**, histories: for every history of messages that does not hit undefined behaviour, the object answers exactly
the float messages on its left inlet, in order, each with the operator applied to that float and the operand in force
(the float most recently given to the right inlet or as second element on the left inlet, including this very message,
else the initial one) -/
theorem binop_history (pow atan2 : Rat → Rat → Rat) (op : Op) (k0 k : Rat) (es : List Ev) (out : List Rat)
    (h : run pow atan2 op k0 es = .ok (k, out)) : Answers pow atan2 op k0 es out ∧ Operand k0 es k := by
  induction es using List.reverseRecOn generalizing k out with
  | nil =>
    simp only [run] at h
    cases h
    exact ⟨.nil, .inr ⟨rfl, by simp⟩⟩
  | append_singleton es e ih =>
    rw [run_append] at h
    simp only [bind, Except.bind] at h
    cases h1 : run pow atan2 op k0 es with
    | error x => rw [h1] at h; cases h
    | ok y =>
      obtain ⟨k1, o1⟩ := y
      rw [h1] at h
      simp only [run, bind, Except.bind] at h
      cases h2 : onMessage pow atan2 op k1 e with
      | error x => rw [h2] at h; cases h
      | ok z =>
        obtain ⟨k2, o⟩ := z
        rw [h2] at h
        simp only [List.append_nil, Except.ok.injEq, Prod.mk.injEq] at h
        obtain ⟨rfl, rfl⟩ := h
        obtain ⟨i1, i2⟩ := ih _ _ h1
        obtain ⟨s1, s2⟩ := onMessage_spec h2
        have hop := i2.snoc s1
        refine ⟨?_, hop⟩
        cases o with
        | none =>
          simp only [Option.toList_none, List.append_nil]
          refine .silent i1 ?_
          rintro ⟨f, h3, h4⟩
          have : ¬ ∃ r, perform pow atan2 op f k2 = .ok r := by
            rintro ⟨r, hr⟩
            cases (s2 r).mpr ⟨f, h3, h4, hr⟩
          -- the event would have produced a value
          obtain ⟨l, e0, e1⟩ := e
          simp only at h3 h4
          subst h3 h4
          unfold onMessage at h2
          simp only [bind, Except.bind] at h2
          split at h2 <;> cases h2
        | some r =>
          simp only [Option.toList_some]
          obtain ⟨f, h3, h4, h5⟩ := (s2 r).mp rfl
          have hnf : ¬ Faults op f k2 := by
            rw [← binop_undefined_iff pow atan2, h5]; simp
          obtain ⟨r', hr', hm⟩ := binop_computes pow atan2 op f k2 hnf
          rw [h5] at hr'
          cases hr'
          exact .answer i1 h3 h4 hop hnf hm

/-- the run succeeds as long as no message meets `Faults`: for operators without faults, always -/
theorem binop_total (pow atan2 : Rat → Rat → Rat) (op : Op) (hop : ∀ f k, ¬ Faults op f k) (k0 : Rat) (es : List Ev) :
    ∃ k out, run pow atan2 op k0 es = .ok (k, out) := by
  induction es generalizing k0 with
  | nil => exact ⟨_, _, rfl⟩
  | cons e es ih =>
    have : ∃ x, onMessage pow atan2 op k0 e = .ok x := by
      unfold onMessage
      split
      · simp only [bind, Except.bind]
        rename_i f _ _
        split
        · rename_i hp
          rw [perform_error hp, binop_undefined_iff] at hp
          exact absurd hp (hop _ _)
        · exact ⟨_, rfl⟩
      · exact ⟨_, rfl⟩
      · exact ⟨_, rfl⟩
    obtain ⟨⟨k1, o⟩, hx⟩ := this
    obtain ⟨k2, out, h2⟩ := ih k1
    exact ⟨k2, o.toList ++ out, by simp only [run, bind, Except.bind, hx, h2]⟩

/-- **C20**, the variant with a constant operand: it answers a float message on any inlet, using the message's own
second element if that is a float, and otherwise the constant -/
theorem binop_constant_operand (pow atan2 : Rat → Rat → Rat) (op : Op) (k : Rat) (e : Ev) :
    (∀ f, e.e0 = .float f → ∃ kk, ((e.e1 = some (.float kk)) ∨ (kk = k ∧ ∀ x, e.e1 ≠ some (.float x))) ∧
      (Faults op f kk → onMessageK pow atan2 op k e = .error .ub) ∧
      (¬ Faults op f kk → ∃ r, onMessageK pow atan2 op k e = .ok (some r) ∧ Means pow atan2 op f kk r)) ∧
    (e.e0 = .other → onMessageK pow atan2 op k e = .ok none) := by
  obtain ⟨l, e0, e1⟩ := e
  refine ⟨?_, ?_⟩
  · rintro f h
    simp only at h
    subst h
    have key : ∀ kk, (Faults op f kk → (do let r ← perform pow atan2 op f kk; .ok (some r) : R (Option Rat)) = .error .ub) ∧
        (¬ Faults op f kk → ∃ r, (do let r ← perform pow atan2 op f kk; .ok (some r) : R (Option Rat)) = .ok (some r) ∧
          Means pow atan2 op f kk r) := by
      intro kk
      constructor
      · intro h
        rw [(binop_undefined_iff pow atan2 op f kk).mpr h]; rfl
      · intro h
        obtain ⟨r, hr, hm⟩ := binop_computes pow atan2 op f kk h
        rw [hr]
        exact ⟨r, rfl, hm⟩
    cases e1 with
    | none => exact ⟨k, .inr ⟨rfl, by simp⟩, key k⟩
    | some el =>
      cases el with
      | other => exact ⟨k, .inr ⟨rfl, by simp⟩, key k⟩
      | float q => exact ⟨q, .inl rfl, key q⟩
  · rintro h
    simp only at h
    subst h
    rfl

/-- non-vacuity: right inlet, then left, then a pair on the left -/
example : (run (fun _ _ => 0) (fun _ _ => 0) .sub 1 [⟨1, .float 5, none⟩, ⟨0, .float 7, none⟩,
    ⟨0, .float 7, some (.float 2)⟩, ⟨0, .other, none⟩, ⟨0, .float 3, some .other⟩]).toOption = some (2, [2, 5, 1]) := by
  decide +kernel

end Verif.Binop
