/-!
Float values as seen by the control objects: exact rationals plus infinities and NaN.  Rounding is not modelled:
the operations below are only comparisons, sign changes and conversions to integers, which are exact in IEEE-754.
-/
namespace Verif

/-- a `float` value -/
inductive Flt
  | nan
  | inf (neg : Bool)
  | fin (q : Rat)
  deriving DecidableEq, Repr

namespace Flt

/-- `f >= 0.0f` (false for NaN) -/
def geZero : Flt → Bool
  | nan => false
  | inf neg => !neg
  | fin q => decide (0 ≤ q)

/-- `f < 0.0f` (false for NaN) -/
def ltZero : Flt → Bool
  | nan => false
  | inf neg => neg
  | fin q => decide (q < 0)

/-- `hv_abs_f`, HvUtils.h -/
def abs : Flt → Flt
  | nan => nan
  | inf _ => inf false
  | fin q => fin (if q < 0 then -q else q)

/-- `(hv_uint32_t) f` for a value that is not negative.  C leaves the conversion undefined when the truncated value
does not fit; then the platform's value `other` is used, which may be any number. -/
def toU32 (other : Nat) : Flt → Nat
  | fin q => if 0 ≤ q ∧ q.floor < 2 ^ 32 then q.floor.toNat else other % 2 ^ 32
  | _ => other % 2 ^ 32

theorem toU32_lt (other : Nat) (f : Flt) : f.toU32 other < 2 ^ 32 := by
  unfold toU32
  split
  · split <;> omega
  · omega

theorem toU32_nat (other n : Nat) (h : n < 2 ^ 32) : (fin (n : Rat)).toU32 other = n := by
  unfold toU32
  have : (n : Rat).floor = (n : Int) := by
    rw [← Rat.intCast_natCast, Rat.floor_intCast]
  simp only
  rw [this, if_pos ⟨by exact_mod_cast Nat.zero_le n, by exact_mod_cast h⟩]
  simp

end Flt
end Verif
