import Verif.PdArray
/-!
`[table name size]`: hvcc/interpreters/pd2hv/PdTableObject.py:22-72, then HLangTable.py:37-39 and HeavyTable.py:49-61 as for arrays.
-/
namespace Verif.PdTable
open Verif.Msg (R)

variable {α : Type} [Zero α]

/-- `__table_name` (`none`: the error for the missing name), `__size`, `__extern` -/
structure Obj where
  name : Option String
  size : Int
  extern : Bool
  deriving DecidableEq, Repr

/-- `PdTableObject.__init__`, PdTableObject.py:34-53; `pyInt` is Python's `int(s)` for a text (`none`: an exception).  An exception of the size, or
of a missing argument, ends the reading of the optional arguments -/
def parse (pyInt : String → Option Int) : List String → Obj
  | [] => ⟨none, 0, false⟩
  | [name] => ⟨some name, 0, false⟩
  | name :: s :: rest =>
    match pyInt s with
    | none => ⟨some name, 0, false⟩
    | some n => ⟨some name, n, rest[0]? = some "@hv_table"⟩

/-- the table in memory: the size is a C `int` that `hTable_init` stores without sign -/
def table (k : Nat) (junk : Nat → α) (o : Obj) : R (Tab.Table α) :=
  PdArray.compiled k junk (PdArray.langTable ⟨(o.size % 2 ^ 32).toNat, []⟩)

end Verif.PdTable
