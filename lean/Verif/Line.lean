import Verif.Simd
import Mathlib.Algebra.Field.Defs
/-!
`hvcc/generators/ir2c/static/HvSignalLine.{h,c}`: line~.

Samples are elements of a field (exact arithmetic).  The counters of remaining samples are 32-bit words that wrap around in
the vector back ends; in the scalar code they are C `int`s whose overflow is undefined (`none`).  A lane-wise
`(mask & t) | (~mask & x)` with a comparison mask is an `if`.
-/
namespace Verif.Line
open Verif.Simd

variable {α : Type}

/-- messages to line~: `[v ms(` with `n` the number of samples that `hv_millisecondsToSamples` gives (converted to `int`),
`[v(`, `[stop(` -/
inductive Msg (α : Type) where
  | ramp (v : α) (n : BitVec 32)
  | jump (v : α)
  | stop

/-- `((float) n)` for an `int` -/
def toF [IntCast α] (n : BitVec 32) : α := (n.toInt : α)

/-! ### SSE and NEON -/

/-- `SignalLine`, HvSignalLine.h:26-35 -/
structure L4 (α : Type) where
  n : V 4 (BitVec 32)
  x : V 4 α
  m : V 4 α
  t : V 4 α

/-- `sLine_init`, HvSignalLine.c:25-34 -/
def L4.init [Zero α] : L4 α := ⟨fun _ => 0, zero, zero, zero⟩

/-- `__hv_line_f`, HvSignalLine.h:53-64 (SSE), 65-73 (NEON) -/
def L4.step [Add α] (o : L4 α) (_ : Unit) : L4 α × V 4 α :=
  let n := o.n
  let mask := fun i => (n i).slt 0#32
  let x := o.x
  let bOut := fun i => if mask i then o.t i else x i
  (⟨fun i => n i - 4#32, add x o.m, o.m, o.t⟩, bOut)

/-- the value from which a new ramp starts, HvSignalLine.c:62 (SSE), 70 (NEON), 124, 131 -/
def L4.start [Add α] [Div α] [OfNat α 4] (o : L4 α) : α := if (0#32).slt (o.n 3) then o.x 3 + o.m 3 / 4 else o.t 3

/-- `sLine_onMessage`, HvSignalLine.c:44-140, SSE and NEON branches -/
def L4.onMessage [Zero α] [Add α] [Sub α] [Mul α] [Div α] [IntCast α] [OfNat α 2] [OfNat α 3] [OfNat α 4] (o : L4 α) :
    Msg α → L4 α
  | .ramp v n =>
    let x := o.start
    let s := (v - x) / toF n
    ⟨![n, n - 1, n - 2, n - 3], ![x, x + s, x + 2 * s, x + 3 * s], fun _ => 4 * s, fun _ => v⟩
  | .jump v => ⟨fun _ => 0, fun _ => v, zero, fun _ => v⟩
  | .stop =>
    let x := o.start
    ⟨fun _ => 0, fun _ => x, zero, fun _ => x⟩

/-! ### AVX: four counters for eight lanes -/

/-- `SignalLine`, HvSignalLine.h:26-35 -/
structure L8 (α : Type) where
  n : V 4 (BitVec 32)
  x : V 8 α
  m : V 8 α
  t : V 8 α

/-- `sLine_init`, HvSignalLine.c:20-24 -/
def L8.init [Zero α] : L8 α := ⟨fun _ => 0, zero, zero, zero⟩

/-- `__hv_line_f`, HvSignalLine.h:40-52 -/
def L8.step [Add α] (o : L8 α) (_ : Unit) : L8 α × V 8 α :=
  let n := o.n
  let masklo := fun i => (n i).slt 0#32
  let n : V 4 (BitVec 32) := fun i => n i - 4#32
  let maskhi := fun i => (n i).slt 0#32
  let mask : Fin 8 → Bool := fun i => if h : i.val < 4 then masklo ⟨i, h⟩ else maskhi ⟨i - 4, by omega⟩
  let x := o.x
  let bOut := fun i => if mask i then o.t i else x i
  (⟨fun i => n i - 4#32, add x o.m, o.m, o.t⟩, bOut)

/-- HvSignalLine.c:50, 115: `o->n[1]` is the 64-bit word made of lanes 2 (low) and 3 (high) -/
def L8.start [Add α] [Div α] [OfNat α 8] (o : L8 α) : α :=
  if (0#64).slt (o.n 3 ++ o.n 2) then o.x 7 + o.m 7 / 8 else o.t 7

/-- `sLine_onMessage`, HvSignalLine.c:44-140, AVX branches -/
def L8.onMessage [Zero α] [Add α] [Sub α] [Mul α] [Div α] [IntCast α] [OfNat α 2] [OfNat α 3] [OfNat α 4] [OfNat α 5]
    [OfNat α 6] [OfNat α 7] [OfNat α 8] (o : L8 α) : Msg α → L8 α
  | .ramp v n =>
    let x := o.start
    let s := (v - x) / toF n
    ⟨![n, n - 1, n - 2, n - 3],
     ![x, x + s, x + 2 * s, x + 3 * s, x + 4 * s, x + 5 * s, x + 6 * s, x + 7 * s], fun _ => 8 * s, fun _ => v⟩
  | .jump v => ⟨fun _ => 0, fun _ => v, zero, fun _ => v⟩
  | .stop =>
    let x := o.start
    ⟨fun _ => 0, fun _ => x, zero, fun _ => x⟩

/-! ### scalar -/

/-- `SignalLine`, HvSignalLine.h:26-35; `n` is an `int` -/
structure L1 (α : Type) where
  n : Int
  x : α
  m : α
  t : α

/-- `sLine_init`, HvSignalLine.c:35-40 -/
def L1.init [Zero α] : L1 α := ⟨0, 0, 0, 0⟩

/-- `__hv_line_f`, HvSignalLine.h:74-78; `none`: signed overflow in `o->n -= 1` -/
def L1.step [Add α] (o : L1 α) : Option (L1 α × α) :=
  let bOut := if o.n < 0 then o.t else o.x
  if o.n - 1 < -2147483648 then none else some (⟨o.n - 1, o.x + o.m, o.m, o.t⟩, bOut)

/-- HvSignalLine.c:77, 138 -/
def L1.start [Add α] (o : L1 α) : α := if o.n > 0 then o.x + o.m else o.t

/-- `sLine_onMessage`, HvSignalLine.c:44-140, scalar branches -/
def L1.onMessage [Zero α] [Add α] [Sub α] [Div α] [IntCast α] (o : L1 α) : Msg α → L1 α
  | .ramp v n =>
    let x := o.start
    ⟨n.toInt, x, (v - x) / toF n, v⟩
  | .jump v => ⟨0, v, 0, v⟩
  | .stop =>
    let x := o.start
    ⟨0, x, 0, x⟩

/-- `k` samples; `none` when an overflow happened -/
def L1.run [Add α] (o : L1 α) : Nat → Option (L1 α)
  | 0 => some o
  | k + 1 => (L1.run o k).bind fun o' => o'.step.map (·.1)

/-- sample `k` -/
def L1.out [Add α] (o : L1 α) (k : Nat) : Option α := (o.run k).bind fun o' => o'.step.map (·.2)

end Verif.Line
