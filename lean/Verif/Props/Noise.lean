import Verif.Noise
import Mathlib.NumberTheory.Multiplicity
import Mathlib.Algebra.Order.Field.Rat
import Mathlib.Data.Rat.Cast.Order
import Mathlib.RingTheory.Coprime.Lemmas
import Mathlib.Tactic.NormNum
import Mathlib.Tactic.Linarith
import Mathlib.Tactic.Positivity
import Mathlib.Tactic.Ring
/-!
# C77: noise~

Specification: with the seed `k`, lane `i` of the `j`-th block after it is `(k + i) * 16807 ^ (j + 1)`, wrapped to 32 bits with sign,
scaled to below 1.
-/
namespace Verif.Noise
open Verif.Simd

/-- wrapped to 32 bits with sign -/
def wrap (z : ℤ) : ℤ := z.bmod (2 ^ 32)

theorem words_since {N : ℕ} {msgs : ℕ → Option ℤ} {m : ℕ} {k : ℤ} (hm : msgs m = some k) (j : ℕ)
    (hs : ∀ b, m < b → b ≤ m + j → msgs b = none) (i : Fin N) :
    words N msgs (m + j) i = BitVec.ofInt 32 ((k + i.val) * 16807 ^ (j + 1)) := by
  induction j with
  | zero =>
    simp only [words, outAt, noiseBlock, Nat.add_zero, hm, step, seed, zero_add, pow_one]
    rw [BitVec.ofInt_mul]
    rfl
  | succ j ih =>
    have ih := ih fun b h1 h2 => hs b h1 (by omega)
    have e : words N msgs (m + (j + 1)) i = words N msgs (m + j) i * 16807#32 := by
      have hn := hs (m + (j + 1)) (by omega) le_rfl
      simp only [words, outAt, noiseBlock, hn, step]
      rfl
    rw [e, ih, pow_succ 16807 (j + 1), ← mul_assoc]
    exact (BitVec.ofInt_mul ((k + i.val) * 16807 ^ (j + 1)) 16807).symm

/-- **C77** for every history of seeds, every number of lanes: the value of every sample since the last seed -/
theorem noise_value {N : ℕ} {msgs : ℕ → Option ℤ} {m : ℕ} {k : ℤ} (hm : msgs m = some k) (j : ℕ)
    (hs : ∀ b, m < b → b ≤ m + j → msgs b = none) (i : Fin N) :
    out N msgs (m + j) i = (wrap ((k + i.val) * 16807 ^ (j + 1)) : ℚ) * 4.65661e-10 := by
  rw [out, words_since hm j hs, sample, BitVec.toInt_ofInt]
  rfl

theorem sample_range (x : BitVec 32) : |sample x| < 1 := by
  have h1 : (-2147483648 : ℤ) ≤ x.toInt := by have := x.le_toInt; norm_num at this; exact this
  have h2 : x.toInt < 2147483648 := by have := x.toInt_lt; norm_num at this; exact this
  have h1' : (-2147483648 : ℚ) ≤ x.toInt := by exact_mod_cast h1
  have h2' : (x.toInt : ℚ) < 2147483648 := by exact_mod_cast h2
  rw [sample, abs_lt]
  constructor <;> norm_num <;> linarith

/-- **C77** every sample lies between -1 and 1, for every history -/
theorem noise_range (N : ℕ) (msgs : ℕ → Option ℤ) (b : ℕ) (i : Fin N) : |out N msgs b i| < 1 := sample_range _

theorem sample_inj {x y : BitVec 32} (h : sample x = sample y) : x = y := by
  rw [sample, sample] at h
  have : (x.toInt : ℚ) = y.toInt := mul_right_cancel₀ (by norm_num : (4.65661e-10 : ℚ) ≠ 0) h
  exact BitVec.eq_of_toInt_eq (by exact_mod_cast this)

theorem ofInt_eq_iff (a b : ℤ) : BitVec.ofInt 32 a = BitVec.ofInt 32 b ↔ (2 : ℤ) ^ 32 ∣ a - b := by
  constructor
  · intro h
    have h1 := congrArg BitVec.toInt h
    rw [BitVec.toInt_ofInt, BitVec.toInt_ofInt] at h1
    have h2 : a % 2 ^ 32 = b % 2 ^ 32 := by
      have ha := Int.bmod_emod (x := a) (m := 2 ^ 32)
      have hb := Int.bmod_emod (x := b) (m := 2 ^ 32)
      rw [h1] at ha
      have := ha.symm.trans hb
      exact_mod_cast this
    exact Int.dvd_of_emod_eq_zero (Int.emod_eq_emod_iff_emod_sub_eq_zero.1 h2)
  · intro h
    apply BitVec.eq_of_toInt_eq
    rw [BitVec.toInt_ofInt, BitVec.toInt_ofInt]
    obtain ⟨c, hc⟩ := h
    have : a = b + ((2 ^ 32 : ℕ) : ℤ) * c := by push_cast; linarith
    rw [this, Int.add_mul_bmod_self_left]

theorem two_pow_dvd_odd_mul {a b : ℤ} (hb : Odd b) (n : ℕ) : (2 : ℤ) ^ n ∣ b * a ↔ (2 : ℤ) ^ n ∣ a := by
  have : IsCoprime ((2 : ℤ) ^ n) b := by
    refine IsCoprime.pow_left ?_
    obtain ⟨c, rfl⟩ := hb
    exact ⟨-c, 1, by ring⟩
  exact ⟨fun h => this.dvd_of_dvd_mul_left h, fun h => h.mul_left _⟩

/-- the multiplier comes back to 1 modulo 2^(s+3) exactly after multiples of 2^s steps -/
theorem order {s : ℕ} (hs : 1 ≤ s) (d : ℕ) : (2 : ℤ) ^ (s + 3) ∣ 16807 ^ d - 1 ↔ 2 ^ s ∣ d := by
  by_cases hd : Even d
  · have h := Int.two_pow_sub_pow (x := 16807) (y := 1) (n := d) (by norm_num) (by norm_num) hd
    have e1 : emultiplicity (2 : ℤ) (16807 + 1) = (3 : ℕ) := by
      rw [emultiplicity_eq_coe]; norm_num
    have e2 : emultiplicity (2 : ℤ) (16807 - 1) = (1 : ℕ) := by
      rw [emultiplicity_eq_coe]; norm_num
    rw [e1, e2, one_pow] at h
    have h' : emultiplicity (2 : ℤ) (16807 ^ d - 1) = (3 : ℕ) + emultiplicity (2 : ℤ) (d : ℤ) := by
      have : emultiplicity (2 : ℤ) (16807 ^ d - 1) + 1 = ((3 : ℕ) + emultiplicity (2 : ℤ) (d : ℤ)) + 1 := by
        rw [h]; push_cast; ring
      exact (ENat.add_left_injective_of_ne_top (by norm_num)) this
    rw [pow_dvd_iff_le_emultiplicity, h']
    have e4 : ((s + 3 : ℕ) : ℕ∞) ≤ (3 : ℕ) + emultiplicity (2 : ℤ) (d : ℤ) ↔ (s : ℕ∞) ≤ emultiplicity (2 : ℤ) (d : ℤ) := by
      push_cast
      rw [add_comm (s : ℕ∞)]
      exact ENat.add_le_add_iff_left (by norm_num)
    rw [e4, ← pow_dvd_iff_le_emultiplicity]
    exact_mod_cast Iff.rfl
  · have ho : Odd d := Nat.not_even_iff_odd.1 hd
    refine iff_of_false (fun h => ?_) fun h => hd ?_
    · have h4 : (4 : ℤ) ∣ 16807 ^ d - 1 := by
        refine Dvd.dvd.trans ?_ h
        rw [show s + 3 = 2 + (s + 1) by ring, pow_add]
        exact Dvd.intro _ rfl
      obtain ⟨c, rfl⟩ := ho
      have h5 : (4 : ℤ) ∣ 16807 ^ (2 * c) - 1 := by
        rw [pow_mul]
        refine Dvd.dvd.trans ?_ (sub_one_dvd_pow_sub_one _ c)
        norm_num
      have h6 : (16807 : ℤ) ^ (2 * c + 1) - 1 = (16807 ^ (2 * c) - 1) * 16807 + 16806 := by ring
      rw [h6] at h4
      omega
    · exact even_iff_two_dvd.2 ((dvd_pow_self 2 (by omega)).trans h)

/-- **C77** the sequence of a lane: if `k + i` is `2 ^ t` times an odd number (`t < 29`), blocks `d` apart have the same sample exactly
if `d` is a multiple of `2 ^ (29 - t)`; so an odd lane repeats after half a milliard blocks -/
theorem noise_period {N : ℕ} {msgs : ℕ → Option ℤ} {m : ℕ} {k : ℤ} (hm : msgs m = some k) (j d : ℕ)
    (hs : ∀ b, m < b → b ≤ m + j + d → msgs b = none) (i : Fin N) {t : ℕ} {o : ℤ} (ht : t < 29) (ho : Odd o) (hk : k + i.val = 2 ^ t * o) :
    out N msgs (m + j + d) i = out N msgs (m + j) i ↔ 2 ^ (29 - t) ∣ d := by
  have h1 := words_since (N := N) hm (j + d) (fun b h1 h2 => hs b h1 (by omega)) i
  have h2 := words_since (N := N) hm j (fun b h1 h2 => hs b h1 (by omega)) i
  rw [← Nat.add_assoc] at h1
  have e : out N msgs (m + j + d) i = out N msgs (m + j) i ↔ words N msgs (m + j + d) i = words N msgs (m + j) i :=
    ⟨sample_inj, fun h => congrArg sample h⟩
  rw [e, h1, h2, ofInt_eq_iff, ← order (by omega)]
  have f : (k + i.val) * 16807 ^ (j + d + 1) - (k + i.val) * 16807 ^ (j + 1) = 2 ^ t * (o * 16807 ^ (j + 1) * (16807 ^ d - 1)) := by
    rw [hk]; ring
  rw [f, show (2 : ℤ) ^ 32 = 2 ^ t * 2 ^ (29 - t + 3) by rw [← pow_add]; congr 1; omega, mul_dvd_mul_iff_left (by positivity)]
  exact two_pow_dvd_odd_mul (ho.mul (Odd.pow (by decide))) _

/-- the seed 5: lanes 0 and 2 repeat after 2^29 blocks, not before -/
example (d : ℕ) : out 4 (fun b => if b = 0 then some 5 else none) d 0 = out 4 (fun b => if b = 0 then some 5 else none) 0 0 ↔ 2 ^ 29 ∣ d := by
  have := noise_period (N := 4) (msgs := fun b => if b = 0 then some 5 else none) (m := 0) (k := 5) rfl 0 d
    (fun b h _ => by simp; omega) 0 (t := 0) (o := 5) (by norm_num) (by decide) (by norm_num)
  simpa using this

/-- **C77** (finding): lanes next to each other in a vector are in arithmetic progression modulo 2^32, for every history: the third
sample follows from the two before -/
theorem noise_progression {N : ℕ} (msgs : ℕ → Option ℤ) (b : ℕ) (i : ℕ) (hi : i + 2 < N) :
    ∃ z : ℤ, out N msgs b ⟨i + 2, hi⟩ = 2 * out N msgs b ⟨i + 1, by omega⟩ - out N msgs b ⟨i, by omega⟩ + z * (2 ^ 32 * 4.65661e-10) := by
  have key : ∃ a c : ℤ, ∀ n : Fin N, words N msgs b n = BitVec.ofInt 32 (a + c * n.val) := by
    have st : ∃ a c : ℤ, ∀ n : Fin N, stateAt noiseBlock zero msgs b n = BitVec.ofInt 32 (a + c * n.val) := by
      induction b with
      | zero => exact ⟨0, 0, fun n => by simp [stateAt, zero]⟩
      | succ b ih =>
        obtain ⟨a, c, h⟩ := ih
        cases hm : msgs b with
        | none =>
          refine ⟨a * 16807, c * 16807, fun n => ?_⟩
          rw [show a * 16807 + c * 16807 * (n.val : ℤ) = (a + c * n.val) * 16807 by ring, BitVec.ofInt_mul, ← h n]
          simp only [stateAt, noiseBlock, hm, step]
          rfl
        | some k =>
          refine ⟨k * 16807, 16807, fun n => ?_⟩
          rw [show k * 16807 + 16807 * (n.val : ℤ) = (k + n.val) * 16807 by ring, BitVec.ofInt_mul]
          simp only [stateAt, noiseBlock, hm, step, seed]
          rfl
    obtain ⟨a, c, h⟩ := st
    cases hm : msgs b with
    | none =>
      refine ⟨a * 16807, c * 16807, fun n => ?_⟩
      rw [show a * 16807 + c * 16807 * (n.val : ℤ) = (a + c * n.val) * 16807 by ring, BitVec.ofInt_mul, ← h n]
      simp only [words, outAt, noiseBlock, hm, step]
      rfl
    | some k =>
      refine ⟨k * 16807, 16807, fun n => ?_⟩
      rw [show k * 16807 + 16807 * (n.val : ℤ) = (k + n.val) * 16807 by ring, BitVec.ofInt_mul]
      simp only [words, outAt, noiseBlock, hm, step, seed]
      rfl
  obtain ⟨a, c, h⟩ := key
  have w : ∀ z : ℤ, ∃ q : ℤ, (BitVec.ofInt 32 z).toInt = z + 2 ^ 32 * q := by
    intro z
    rw [BitVec.toInt_ofInt]
    refine ⟨-(Int.bdiv z (2 ^ 32)), ?_⟩
    have := Int.bmod_add_bdiv z (2 ^ 32)
    push_cast at this ⊢
    linarith
  obtain ⟨q0, h0⟩ := w (a + c * (i : ℤ))
  obtain ⟨q1, h1⟩ := w (a + c * ((i + 1 : ℕ) : ℤ))
  obtain ⟨q2, h2⟩ := w (a + c * ((i + 2 : ℕ) : ℤ))
  refine ⟨q2 - 2 * q1 + q0, ?_⟩
  simp only [out, sample]
  rw [h ⟨i + 2, hi⟩, h ⟨i + 1, by omega⟩, h ⟨i, by omega⟩, h0, h1, h2]
  push_cast
  ring

/-- **C77** (finding): with the seed 0 the first lane is silent forever; in the scalar build that is the whole signal -/
theorem noise_seed_zero {N : ℕ} {msgs : ℕ → Option ℤ} {m : ℕ} (hm : msgs m = some 0) (j : ℕ)
    (hs : ∀ b, m < b → b ≤ m + j → msgs b = none) (hN : 0 < N) : out N msgs (m + j) ⟨0, hN⟩ = 0 := by
  rw [noise_value hm j hs]
  simp [wrap]

end Verif.Noise
