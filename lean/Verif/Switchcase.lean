import Verif.Lists
/-!
The code generated for `__switchcase`, hvcc/generators/ir2c/ControlSwitchcase.py:45-89, and its run on a message in memory.
-/
namespace Verif.Switchcase
open Verif.Msg (R Err Val getHash)
open Verif.Mem
open Verif.Lists (Case caseHash symbolStr)

/-- one arm of a C `switch`: `case label: { …; break; }`, or `default` (`none`); `send`: the outlet whose connections are called -/
structure Arm where
  label : Option (BitVec 32)
  send : Option Nat
  brk : Bool
  deriving DecidableEq, Repr

/-- the arms of the second switch for the cases from number `i` on, ControlSwitchcase.py:71-79; `none`: `get_hash` raises -/
def genCases : Nat → List Case → Option (List Arm)
  | _, [] => some []
  | i, c :: cs => do some (⟨some (← caseHash c), some i, true⟩ :: (← genCases (i + 1) cs))

/-- the second switch, ControlSwitchcase.py:69-86; `on_message_list[-1]` is the last of the `nOut` outlets -/
def gen (cases : List Case) (nOut : Nat) : Option (List Arm) := do
  some ((← genCases 0 cases) ++ [⟨none, some (nOut - 1), true⟩])

/-- C: two arms of a switch with equal labels are an error -/
def Compiles (arms : List Arm) : Prop := (arms.map (·.label)).Nodup

/-- C: the arms are executed one after the other up to the first `break` -/
def runFrom : List Arm → List Nat
  | [] => []
  | a :: as => a.send.toList ++ if a.brk then [] else runFrom as

/-- C: `switch (h)` starts at the arm with that label, or else at `default` -/
def runSwitch (arms : List Arm) (h : BitVec 32) : List Nat :=
  let at' (l : Option (BitVec 32)) := arms.dropWhile fun a => a.label ≠ l
  runFrom (if at' (some h) = [] then at' none else at' (some h))

/-- the number of outlets of the object, HIrSwitchcase.py:33-43 -/
def outlets (cases : List Case) : Nat := cases.length + 1

/-- `cSwitchcase_…_onMessage` for the message at address `m`: the outlets that are called -/
def onMessage (fuel : Nat) (M : Mem) (m : Nat) (arms : List Arm) : R (List Nat) := do
  let h ← getHash fuel M m 0
  let msgIndex := if h = Hash.cHash true false (symbolStr.map (BitVec.ofNat 8)) then 1 else 0
  let h ← getHash fuel M m msgIndex
  .ok (runSwitch arms h)

end Verif.Switchcase
