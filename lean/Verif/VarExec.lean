import Verif.Reduce
import Verif.Simd
/-!
The signal variables at run time: `HvSignalVar.h` and the process loop of `Heavy_NAME.cpp`.
-/
namespace Verif.Reduce

variable {α : Type} [Zero α] {N : Nat}

/-- the contents of all `SignalVarf`, HvSignalVar.h:28-30 -/
abbrev Vars (α : Type) (N : Nat) := Nat → Fin N → α

/-- one signal function: `__hv_varwrite_f` (HvSignalVar.h:38-40) stores the vector at its inlet, `__hv_varread_f` (34-36) and all
other functions change no variable -/
def runOne (kind : Nat → Kind α) (inp : Nat → Fin N → α) (o : Nat) (s : Vars α N) : Vars α N :=
  match kind o with
  | .varWrite y => fun z => if z = y then inp o else s z
  | _ => s

/-- the signal functions of one vector in their order, Heavy_NAME.cpp:236-240 -/
def runVars (kind : Nat → Kind α) (inp : Nat → Fin N → α) : List Nat → Vars α N → Vars α N
  | [], s => s
  | o :: os, s => runVars kind inp os (runOne kind inp o s)

/-- the variables before vector `k`; at first 0 (`sVarf_init`, HvSignalVar.c:37-40, with the default arguments `k = 0`, `step = 0` of
`__var~f` in heavy.ir.json); no message goes to a variable made for a send -/
def varsAt (kind : Nat → Kind α) (inp : Nat → Nat → Fin N → α) (order : List Nat) : Nat → Vars α N
  | 0 => fun _ _ => 0
  | k + 1 => runVars kind (inp k) order (varsAt kind inp order k)

/-- what `__hv_varread_f` of the variable `y` yields in vector `k` when the functions `pre` have been called before it -/
def readAt (kind : Nat → Kind α) (inp : Nat → Nat → Fin N → α) (order pre : List Nat) (k y : Nat) : Fin N → α :=
  runVars kind (inp k) pre (varsAt kind inp order k) y

end Verif.Reduce
