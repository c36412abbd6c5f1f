import Verif.Flt
/-!
Model of `hvcc/generators/ir2c/static/HvControlRandom.c`, the Lehmer generator behind `[random]`.
The state is `hv_uint32_t`; products are taken in 64 bits, where they cannot overflow.
-/
namespace Verif.Random

/-- the modulus `4294967291UL` -/
def P : Nat := 4294967291
/-- the multiplier `279470273UL` -/
def mul : Nat := 279470273

/-- `cRandom_init`, HvControlRandom.c:22-25: `seed` is a C `int`, the state its value as `hv_uint32_t` -/
def init (seed : Int) : Nat := if seed ≠ 0 then (seed % 2 ^ 32).toNat else 1

/-- the new state on a message at inlet 0, HvControlRandom.c:32 -/
def next (s : Nat) : Nat := (s * mul % 2 ^ 64) % P % 2 ^ 32

/-- the float sent at inlet 0, HvControlRandom.c:33: `(float) (state >> 9) * 0.00000011920929f`; the constant is the
float `2^-23`, and the product is exact because `state >> 9` has at most 23 bits -/
def out (s : Nat) : Rat := ((s / 2 ^ 9 : Nat) : Rat) / 2 ^ 23

/-- messages: inlet 0 (any message), a float at inlet 1 (new state, HvControlRandom.c:38-43; `other` is the
platform's conversion of a float that does not fit in 32 bits) -/
inductive Msg
  | bang
  | seed (f : Flt)

/-- `cRandom_onMessage`, HvControlRandom.c:27-46 -/
def step (other : Nat) (s : Nat) : Msg → Nat × Option Rat
  | .bang => (next s, some (out (next s)))
  | .seed f => (f.toU32 other, none)

/-- a history of messages: the final state and the floats sent -/
def run (other : Nat) : Nat → List Msg → Nat × List Rat
  | s, [] => (s, [])
  | s, m :: ms =>
    let (s, o) := step other s m
    let (s', os) := run other s ms
    (s', o.toList ++ os)

end Verif.Random
