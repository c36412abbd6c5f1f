import Verif.Random
import Mathlib.NumberTheory.LucasPrimality
import Mathlib.FieldTheory.Finite.Basic
import Mathlib.Tactic.NormNum.Prime
import Mathlib.GroupTheory.OrderOfElement
import Mathlib.Tactic.Linarith
/-! C19: the random generator's outputs are in [0,1), and it never gets stuck (unless its state becomes 0). -/
namespace Verif.Random

theorem next_eq {s : Nat} (h : s < 2 ^ 32) : next s = s * mul % P := by
  unfold next
  have h1 : s * mul < 2 ^ 64 := by
    have : s * mul ≤ 2 ^ 32 * mul := Nat.mul_le_mul_right _ (by omega)
    have : 2 ^ 32 * mul < 2 ^ 64 := by decide
    omega
  rw [Nat.mod_eq_of_lt h1]
  have h2 : s * mul % P < P := Nat.mod_lt _ (by decide)
  have h3 : P < 2 ^ 32 := by decide
  rw [Nat.mod_eq_of_lt (by omega)]

theorem next_lt (s : Nat) : next s < P := by
  unfold next
  have h2 : s * mul % 2 ^ 64 % P < P := Nat.mod_lt _ (by decide)
  have h3 : P < 2 ^ 32 := by decide
  rw [Nat.mod_eq_of_lt (by omega)]
  exact h2

theorem out_range {s : Nat} (h : s < 2 ^ 32) : 0 ≤ out s ∧ out s < 1 := by
  have h1 : s / 2 ^ 9 < 2 ^ 23 := by omega
  have h2 : ((s / 2 ^ 9 : Nat) : Rat) < ((2 ^ 23 : Nat) : Rat) := by exact_mod_cast h1
  have h3 : (0 : Rat) ≤ ((s / 2 ^ 9 : Nat) : Rat) := by exact_mod_cast Nat.zero_le _
  unfold out
  constructor
  · positivity
  · rw [div_lt_one (by positivity)]
    calc ((s / 2 ^ 9 : Nat) : Rat) < ((2 ^ 23 : Nat) : Rat) := h2
      _ = 2 ^ 23 := by norm_num

/-- **C19**, range: for every seed and every history of messages (including arbitrary reseeding), every output is in
`[0, 1)` -/
theorem random_in_range (other s : Nat) (ms : List Msg) : ∀ f ∈ (run other s ms).2, 0 ≤ f ∧ f < 1 := by
  induction ms generalizing s with
  | nil => simp [run]
  | cons m ms ih =>
    intro f hf
    cases m with
    | bang =>
      simp only [run, step, Option.toList_some, List.singleton_append, List.mem_cons] at hf
      rcases hf with rfl | hf
      · exact out_range (Nat.lt_trans (next_lt s) (by decide))
      · exact ih _ f hf
    | seed g =>
      simp only [run, step, Option.toList_none, List.nil_append] at hf
      exact ih _ f hf

/-- `[random n]` (libs/pd/random.pd: `* n`, then `floor`) gives an integer from `0` to `n - 1` -/
theorem random_integer_range (other s : Nat) (ms : List Msg) (n : Nat) (hn : 0 < n) :
    ∀ f ∈ (run other s ms).2, 0 ≤ (f * n).floor ∧ (f * n).floor < n := by
  intro f hf
  obtain ⟨h1, h2⟩ := random_in_range other s ms f hf
  have hn' : (0 : Rat) < (n : Rat) := by exact_mod_cast hn
  constructor
  · rw [Rat.le_floor_iff]
    push_cast
    positivity
  · rw [Rat.floor_lt_iff]
    push_cast
    nlinarith

/-! ### the period -/

/-- fast modular exponentiation, only used to compute the certificates below -/
def powmod (a m : Nat) : Nat → Nat → Nat
  | 0, _ => 1 % m
  | fuel + 1, n => if n = 0 then 1 % m else
    let h := powmod a m fuel (n / 2)
    if n % 2 = 0 then h * h % m else h * h % m * a % m

theorem powmod_eq (a m fuel n : Nat) (h : n < 2 ^ fuel) : powmod a m fuel n = a ^ n % m := by
  induction fuel generalizing n with
  | zero => simp at h; simp [powmod, h]
  | succ fuel ih =>
    unfold powmod
    split
    · rename_i h0; simp [h0]
    · simp only
      rw [ih (n / 2) (by rw [Nat.pow_succ] at h; omega)]
      have e : a ^ (n / 2) % m * (a ^ (n / 2) % m) % m = a ^ (2 * (n / 2)) % m := by
        rw [← Nat.mul_mod, ← pow_add, two_mul]
      split
      · rw [e, show 2 * (n / 2) = n by omega]
      · rw [e, Nat.mul_mod, Nat.mod_mod, ← Nat.mul_mod, ← pow_succ, show 2 * (n / 2) + 1 = n by omega]

theorem pow_ne {a n r : Nat} (h : powmod a P 33 n = r) (hn : n < 2 ^ 33) (hr : r ≠ 1) (hrP : r < P) : ((a : ZMod P)) ^ n ≠ 1 := by
  intro hc
  rw [powmod_eq a P 33 n hn] at h
  have : ((a ^ n : Nat) : ZMod P) = ((1 : Nat) : ZMod P) := by push_cast; exact hc
  rw [ZMod.natCast_eq_natCast_iff'] at this
  rw [h, Nat.mod_eq_of_lt (by decide : 1 < P)] at this
  exact hr this

theorem pow_one {a n : Nat} (h : powmod a P 33 n = 1) (hn : n < 2 ^ 33) : ((a : ZMod P)) ^ n = 1 := by
  rw [powmod_eq a P 33 n hn] at h
  have : ((a ^ n : Nat) : ZMod P) = ((1 : Nat) : ZMod P) := by
    rw [ZMod.natCast_eq_natCast_iff', h, Nat.mod_eq_of_lt (by decide : 1 < P)]
  push_cast at this
  exact this

theorem P_factors : P - 1 = 2 * 5 * 19 * 22605091 := by decide
theorem prime_big : Nat.Prime 22605091 := by norm_num

theorem mul_order_certificate : ((mul : ZMod P)) ^ (P - 1) = 1 ∧
    ∀ q : ℕ, q.Prime → q ∣ P - 1 → ((mul : ZMod P)) ^ ((P - 1) / q) ≠ 1 := by
  refine ⟨pow_one (by decide +kernel) (by decide), fun q hq hd => ?_⟩
  rw [P_factors] at hd
  have : q = 2 ∨ q = 5 ∨ q = 19 ∨ q = 22605091 := by
    rcases (Nat.Prime.dvd_mul hq).1 hd with h | h
    · rcases (Nat.Prime.dvd_mul hq).1 h with h | h
      · rcases (Nat.Prime.dvd_mul hq).1 h with h | h
        · exact Or.inl ((Nat.prime_dvd_prime_iff_eq hq Nat.prime_two).1 h)
        · exact Or.inr (Or.inl ((Nat.prime_dvd_prime_iff_eq hq (by norm_num)).1 h))
      · exact Or.inr (Or.inr (Or.inl ((Nat.prime_dvd_prime_iff_eq hq (by norm_num)).1 h)))
    · exact Or.inr (Or.inr (Or.inr ((Nat.prime_dvd_prime_iff_eq hq prime_big).1 h)))
  rcases this with rfl | rfl | rfl | rfl
  · exact pow_ne (r := 4294967290) (by decide +kernel) (by decide) (by decide) (by decide)
  · exact pow_ne (r := 2990816245) (by decide +kernel) (by decide) (by decide) (by decide)
  · exact pow_ne (r := 3875674728) (by decide +kernel) (by decide) (by decide) (by decide)
  · exact pow_ne (r := 2842258062) (by decide +kernel) (by decide) (by decide) (by decide)

theorem P_prime : Nat.Prime P := lucas_primality P _ mul_order_certificate.1 mul_order_certificate.2

/-- the state after `n` messages at inlet 0 -/
def stateAfter (s : Nat) : Nat → Nat
  | 0 => s
  | n + 1 => next (stateAfter s n)

theorem stateAfter_lt (s n : Nat) (h : s < 2 ^ 32) : stateAfter s n < 2 ^ 32 := by
  cases n with
  | zero => exact h
  | succ n => exact Nat.lt_trans (next_lt _) (by decide)

theorem stateAfter_cast (s n : Nat) (h : s < 2 ^ 32) : ((stateAfter s n : Nat) : ZMod P) = s * (mul : ZMod P) ^ n := by
  induction n with
  | zero => simp [stateAfter]
  | succ n ih =>
    simp only [stateAfter, next_eq (stateAfter_lt s n h)]
    rw [ZMod.natCast_mod]
    push_cast
    rw [ih, pow_succ, mul_assoc]

theorem mul_order : orderOf ((mul : ZMod P)) = P - 1 :=
  orderOf_eq_of_pow_and_pow_div_prime (by decide) mul_order_certificate.1 fun q h1 h2 => mul_order_certificate.2 q h1 h2

/-- **C19**, never stuck (partial: the state is not a multiple of the modulus).  From such a state the generator visits
all `P - 1 = 4294967290` non-zero states before it repeats one: two states after `i < j` messages are equal exactly
when `j - i` is a multiple of `P - 1`, and no state is 0. -/
theorem random_full_period_partial (s : Nat) (h : s < 2 ^ 32) (hs : s % P ≠ 0) (i j : Nat) (hi : 0 < i) (hij : i ≤ j) :
    (stateAfter s i = stateAfter s j ↔ (P - 1) ∣ (j - i)) ∧ stateAfter s i ≠ 0 := by
  have : Fact P.Prime := ⟨P_prime⟩
  have hsz : (s : ZMod P) ≠ 0 := fun hc => hs (by
    rw [show (0 : ZMod P) = ((0 : Nat) : ZMod P) by simp, ZMod.natCast_eq_natCast_iff'] at hc
    simpa using hc)
  have hmz : (mul : ZMod P) ≠ 0 := fun hc => by
    have := mul_order_certificate.1
    rw [hc, zero_pow (by decide)] at this
    exact zero_ne_one this
  have hlt : ∀ n, 0 < n → stateAfter s n < P := fun n hn => by
    cases n with
    | zero => omega
    | succ n => exact next_lt _
  have hcast : ∀ n, 0 < n → ∀ m, 0 < m → (stateAfter s n = stateAfter s m ↔ ((stateAfter s n : Nat) : ZMod P) = (stateAfter s m : Nat)) := by
    intro n hn m hm
    rw [ZMod.natCast_eq_natCast_iff', Nat.mod_eq_of_lt (hlt n hn), Nat.mod_eq_of_lt (hlt m hm)]
  constructor
  · rw [hcast i hi j (by omega), stateAfter_cast s i h, stateAfter_cast s j h]
    rw [mul_right_inj' hsz]
    obtain ⟨d, rfl⟩ := Nat.exists_eq_add_of_le hij
    rw [Nat.add_sub_cancel_left, pow_add, ← mul_order, orderOf_dvd_iff_pow_eq_one]
    constructor
    · intro e
      have := mul_left_cancel₀ (pow_ne_zero i hmz) (e.symm.trans (mul_one _).symm)
      exact this
    · intro e; rw [e, mul_one]
  · intro hc
    have : ((stateAfter s i : Nat) : ZMod P) = 0 := by rw [hc]; simp
    rw [stateAfter_cast s i h] at this
    rcases mul_eq_zero.1 this with h1 | h1
    · exact hsz h1
    · exact pow_ne_zero i hmz h1

/-- every seed except `0` (replaced by 1) and `-5` starts the generator in a good state -/
theorem init_good (seed : Int) (h1 : -2 ^ 31 ≤ seed) (h2 : seed < 2 ^ 31) (h5 : seed ≠ -5) :
    init seed < 2 ^ 32 ∧ init seed % P ≠ 0 := by
  unfold init P
  split <;> constructor <;> omega

/-- finding F11: with the seed `-5` the state is the modulus itself; every output from then on is 0.  A reseeding
message `0` does the same. -/
theorem random_stuck (other n : Nat) :
    (run other (init (-5)) (List.replicate n .bang)).2 = List.replicate n 0 ∧
    (run other 1 (.seed (.fin 0) :: List.replicate n .bang)).2 = List.replicate n 0 := by
  have hz : ∀ n, (run other 0 (List.replicate n .bang)).2 = List.replicate n 0 := by
    intro n
    induction n with
    | zero => rfl
    | succ n ih =>
      have h0 : next 0 = 0 := by decide
      have h1 : out 0 = 0 := by simp [out]
      simp only [List.replicate_succ, run, step, h0, h1, Option.toList_some, List.singleton_append, ih]
  constructor
  · cases n with
    | zero => rfl
    | succ n =>
      have h0 : next (init (-5)) = 0 := by decide
      have h1 : out 0 = 0 := by simp [out]
      simp only [List.replicate_succ, run, step, h0, h1, Option.toList_some, List.singleton_append, hz]
  · have h0 : (Flt.fin 0).toU32 other = 0 := by
      simpa using Flt.toU32_nat other 0 (by decide)
    simp only [run, step, h0, Option.toList_none, List.nil_append, hz]

/-- the hypotheses hold for the default seed -/
example : init 0 = 1 ∧ (1 : Nat) % P ≠ 0 := by decide

end Verif.Random
