/-
Errors and warnings of a Pd patch and where the compilation stops.
Models `hvcc/interpreters/pd2hv/PdObject.py` 62-106, `hvcc/interpreters/pd2hv/PdGraph.py` 186-198,
`hvcc/interpreters/pd2hv/PdParser.py` 208-214 and `hvcc/interpreters/pd2hv/pd2hv.py` 64-80.
-/

namespace Verif.PdNotices

/-- `CompilerMsg` (`hvcc/types/compiler.py` 10-20): whether its number is `ERROR_EXCEPTION`, and its
text.  Simplified: the other notification numbers are not told apart, no code here reads them. -/
structure Msg where
  isExc : Bool
  text : String
deriving DecidableEq, Repr

/-- A box of a patch (`hvcc/interpreters/pd2hv/PdObject.py` 25-70): the errors and the warnings
added to it; a graph (`hvcc/interpreters/pd2hv/PdGraph.py` 25-60) also has boxes inside. -/
inductive Box where
  | obj (errors warnings : List Msg)
  | graph (errors warnings : List Msg) (objs : List Box)

/-- `CompilerNotif` (`hvcc/types/compiler.py` 22-26), without its exception. -/
structure Notif where
  hasError : Bool
  warnings : List Msg
  errors : List Msg
deriving DecidableEq, Repr

/-- `PdGraph.get_notices`, `hvcc/interpreters/pd2hv/PdGraph.py` 193-198: drop the exceptions if
another error is there. -/
def dropExc (n : Notif) : Notif :=
  if n.errors.any (fun m => !m.isExc) then
    { n with errors := n.errors.filter (fun m => !m.isExc) }
  else n

mutual
/-- `PdObject.get_notices`, `hvcc/interpreters/pd2hv/PdObject.py` 72-106, and
`PdGraph.get_notices`, `hvcc/interpreters/pd2hv/PdGraph.py` 186-198.  Simplified: the box's name
put before each text is left out; the lists are fresh ones, as pydantic makes them. -/
def notices : Box → Notif
  | .obj e w => { hasError := decide (0 < e.length), warnings := w, errors := e }
  | .graph e w os =>
    dropExc
      { hasError := decide (0 < e.length)
        warnings := w ++ (noticesAll os).flatMap (·.warnings)
        errors := e ++ (noticesAll os).flatMap (·.errors) }
/-- The loop over the boxes, `hvcc/interpreters/pd2hv/PdGraph.py` 188-191. -/
def noticesAll : List Box → List Notif
  | [] => []
  | b :: bs => notices b :: noticesAll bs
end

/-- The check of `pd2hv.compile`, `hvcc/interpreters/pd2hv/pd2hv.py` 65-68: does it stop here? -/
def stops (root : Box) : Bool := decide (0 < (notices root).errors.length)

/-- The check of the parser before it validates the root, `hvcc/interpreters/pd2hv/PdParser.py`
208-214: is the patch validated? -/
def validated (root : Box) : Bool := !(notices root).hasError

end Verif.PdNotices
