import Verif.PdBinop
/-!
Messages at the inlet of the signal boxes of the library (`abs~ clip~ cos~ dbtopow~ dbtorms~ exp~ ftom~ hip~ lop~ mtof~ powtodb~ q8_rsqrt~
q8_sqrt~ rmstodb~ rsqrt~ sqrt~ wrap~`): hvcc/interpreters/pd2hv/PdLibSignalGraph.py:36-79, chosen by PdParser.py:405-423, next to the
signal operators of `PdBinop.lean`.  Again the canvas is the list of cables (`PdGraph.__connections`), whose order is that of the messages.
-/
namespace Verif.PdBinop
open Verif.Reduce

variable {α : Type}

/-- a box with inlets of signals: an operator (PdBinopObject) or a box of the library (PdLibSignalGraph) -/
inductive Box
  | op (o : Nat)
  | lib (o : Nat)
  deriving DecidableEq, Repr

/-- the object -/
def Box.id : Box → Nat
  | .op o => o
  | .lib o => o

/-- `PdLibSignalGraph.validate_configuration`, PdLibSignalGraph.py:43-76: with cables at the first inlet, none of them of signals; the code that
follows there is that of `convert` with inlet 0 -/
def libBox [Zero α] (o : Nat) (C : Canvas α) : Canvas α :=
  if left.hasSig (C.into o 0) = false ∧ C.into o 0 ≠ [] then convert o 0 (C.into o 0) C else C

/-- `o.validate_configuration()` for one box -/
def one [Zero α] (args : Nat → Bool) (b : Box) (C : Canvas α) : Canvas α :=
  match b with
  | .op o => right args o (left o C)
  | .lib o => libBox o C

/-- all of them, in the order of the file, PdGraph.py:171-173 -/
def validateAll [Zero α] (args : Nat → Bool) (bs : List Box) (C : Canvas α) : Canvas α :=
  bs.foldl (fun C b => one args b C) C

end Verif.PdBinop
