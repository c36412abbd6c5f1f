import Verif.Message
/-!
Model of `hvcc/generators/ir2c/static/HvControlBinop.{h,c}`: the two-operand arithmetic objects of the control domain.

Operands are finite floats, taken as exact rationals: rounding, NaN and infinities are not modelled.  Conversions of
out-of-range values to `int`, integer division overflow and out-of-range shifts are undefined in C and give `ub`.
`pow` and `atan2` are parameters.
-/
namespace Verif.Binop
open Verif.Msg (R Err)

/-- `BinopType`, HvControlBinop.h:26-51 -/
inductive Op
  | add | sub | mul | div | intDiv | modBi | modUni | shl | shr | band | bxor | bor
  | eq | neq | land | lor | lt | le | gt | ge | max | min | pow | atan2
  deriving DecidableEq, Repr

/-- C truncation of a float to an integer -/
def trunc (q : Rat) : Int := if 0 ≤ q then q.floor else q.ceil

/-- `(int) f`: undefined when the truncated value is not an `int` -/
def toInt (q : Rat) : R Int :=
  if -2 ^ 31 ≤ trunc q ∧ trunc q < 2 ^ 31 then .ok (trunc q) else .error .ub

/-- C `a / b` on `int` -/
def cDiv (a b : Int) : R Int := if b = 0 ∨ (a = -2 ^ 31 ∧ b = -1) then .error .ub else .ok (a.tdiv b)
/-- C `a % b` on `int` -/
def cMod (a b : Int) : R Int := if b = 0 ∨ (a = -2 ^ 31 ∧ b = -1) then .error .ub else .ok (a.tmod b)
/-- C `a << b` on `int` (C11 6.5.7: `a` not negative, the result representable) -/
def cShl (a b : Int) : R Int :=
  if 0 ≤ b ∧ b < 32 ∧ 0 ≤ a ∧ a * 2 ^ b.toNat < 2 ^ 31 then .ok (a * 2 ^ b.toNat) else .error .ub
/-- C `a >> b` on `int` (arithmetic shift for negative `a`, as all supported compilers do) -/
def cShr (a b : Int) : R Int := if 0 ≤ b ∧ b < 32 then .ok (a >>> b.toNat) else .error .ub
/-- a bitwise operation on `int` in two's complement -/
def cBit (g : BitVec 32 → BitVec 32 → BitVec 32) (a b : Int) : Int := (g (BitVec.ofInt 32 a) (BitVec.ofInt 32 b)).toInt

/-- a C truth value as a float -/
def tv (b : Bool) : Rat := if b then 1 else 0

/-- `cBinop_perform_op`, HvControlBinop.c:24-63 -/
def perform (pow atan2 : Rat → Rat → Rat) (op : Op) (f k : Rat) : R Rat :=
  match op with
  | .add => .ok (f + k)
  | .sub => .ok (f - k)
  | .mul => .ok (f * k)
  | .div => .ok (if k ≠ 0 then f / k else 0)
  | .intDiv => do
    let ik ← toInt k
    if ik ≠ 0 then do .ok (((← cDiv (← toInt f) ik) : Int) : Rat) else .ok 0
  | .modBi => do
    let ik ← toInt k
    if ik ≠ 0 then do .ok (((← cMod (← toInt f) ik) : Int) : Rat) else .ok 0
  | .modUni => do
    let g ← if k = 0 then .ok 0 else do .ok (((← cMod (← toInt f) (← toInt k)) : Int) : Rat)
    .ok (if g < 0 then g + (if k < 0 then -k else k) else g)
  | .shl => do .ok (((← cShl (← toInt f) (← toInt k)) : Int) : Rat)
  | .shr => do .ok (((← cShr (← toInt f) (← toInt k)) : Int) : Rat)
  | .band => do .ok ((cBit (· &&& ·) (← toInt f) (← toInt k) : Int) : Rat)
  | .bxor => do .ok ((cBit (· ^^^ ·) (← toInt f) (← toInt k) : Int) : Rat)
  | .bor => do .ok ((cBit (· ||| ·) (← toInt f) (← toInt k) : Int) : Rat)
  | .eq => .ok (tv (f = k))
  | .neq => .ok (tv (f ≠ k))
  | .land => .ok (if f = 0 ∨ k = 0 then 0 else 1)
  | .lor => .ok (if f = 0 ∧ k = 0 then 0 else 1)
  | .lt => .ok (tv (f < k))
  | .le => .ok (tv (f ≤ k))
  | .gt => .ok (tv (f > k))
  | .ge => .ok (tv (f ≥ k))
  | .max => .ok (if f ≤ k then k else f)
  | .min => .ok (if f ≤ k then f else k)
  | .pow => .ok (if f > 0 then pow f k else 0)
  | .atan2 => .ok (if f = 0 ∧ k = 0 then 0 else atan2 f k)

/-- a message element as the object sees it -/
inductive Elem
  | float (q : Rat)
  | other
  deriving DecidableEq, Repr

/-- an event: the inlet and the first two elements of the message (`none`: the message has one element) -/
structure Ev where
  letIn : Nat
  e0 : Elem
  e1 : Option Elem
  deriving DecidableEq, Repr

/-- `cBinop_onMessage`, HvControlBinop.c:65-92: state `k`, output -/
def onMessage (pow atan2 : Rat → Rat → Rat) (op : Op) (k : Rat) (e : Ev) : R (Rat × Option Rat) :=
  match e.letIn, e.e0 with
  | 0, .float f => do
    let k := match e.e1 with
      | some (.float k') => k'
      | _ => k
    let r ← perform pow atan2 op f k
    .ok (k, some r)
  | 1, .float f => .ok (f, none)
  | _, _ => .ok (k, none)

/-- `cBinop_k_onMessage`, HvControlBinop.c:94-105: the operand is a constant of the generated code -/
def onMessageK (pow atan2 : Rat → Rat → Rat) (op : Op) (k : Rat) (e : Ev) : R (Option Rat) :=
  match e.e0 with
  | .float f => do
    let k := match e.e1 with
      | some (.float k') => k'
      | _ => k
    let r ← perform pow atan2 op f k
    .ok (some r)
  | .other => .ok none

/-- a history of messages: final operand and everything sent -/
def run (pow atan2 : Rat → Rat → Rat) (op : Op) : Rat → List Ev → R (Rat × List Rat)
  | k, [] => .ok (k, [])
  | k, e :: es => do
    let (k, o) ← onMessage pow atan2 op k e
    let (k, os) ← run pow atan2 op k es
    .ok (k, o.toList ++ os)

end Verif.Binop
