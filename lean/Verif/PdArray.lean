import Verif.Table
/-!
Arrays of a Pd patch: `#X array`, `#A` and `#X restore` in hvcc/interpreters/pd2hv/PdParser.py:295-319, 543-564, 620-621, the table
object of hvcc/core/hv2ir/HLangTable.py:28-48 and its code, hvcc/generators/ir2c/HeavyTable.py:37-61.
-/
namespace Verif.PdArray
open Verif.Msg (R)

variable {α : Type} [Zero α]

/-- the `size` and `values` of the table object -/
structure Arr (α : Type) where
  size : Nat
  values : List α
  deriving DecidableEq, Repr

/-- `#X array name size float 1`, PdParser.py:558-562 -/
def declare (size : Nat) : Arr α := ⟨size, []⟩

/-- `#A start v …`, PdParser.py:621; the start index is ignored -/
def addValues (a : Arr α) (line : Nat × List α) : Arr α := { a with values := a.values ++ line.2 }

/-- `#X restore`, PdParser.py:297-318 -/
def restore (a : Arr α) : Arr α :=
  let declared := a.size
  let supplied := a.values.length
  if declared ≠ supplied then
    let newSize := max declared supplied
    { size := newSize,
      values := if newSize < declared then a.values.take newSize
        else a.values ++ List.replicate (newSize - declared) 0 }
  else a

/-- the statements of one array -/
def parse (size : Nat) (lines : List (Nat × List α)) : Arr α := restore (lines.foldl addValues (declare size))

/-- HLangTable.py:37-39: the values override the size -/
def langTable (a : Arr α) : Arr α := if a.values.length > 0 then { a with size := a.values.length } else a

/-- `get_C_init`, HeavyTable.py:49-61, executed -/
def compiled (k : Nat) (junk : Nat → α) (a : Arr α) : R (Tab.Table α) :=
  if a.values.length > 0 then Tab.initWithData k junk a.values else Tab.init k junk a.size

/-- from the file to the table in memory -/
def table (k : Nat) (junk : Nat → α) (size : Nat) (lines : List (Nat × List α)) : R (Tab.Table α) :=
  compiled k junk (langTable (parse size lines))

end Verif.PdArray
