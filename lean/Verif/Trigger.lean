import Verif.Lib
/-!
`[trigger]` from the text of the patch to its casts: hvcc/interpreters/pd2hv/PdTriggerObject.py:22-66 and
hvcc/core/hv2ir/HLangSequence.py:43-54.
-/
namespace Verif.Trigger
open Verif.Control (Cast)

/-- the result of `PdTriggerObject.__init__`: `obj_args`, a warning, an error -/
structure Obj where
  args : List String
  warning : Bool
  error : Bool
  deriving DecidableEq

/-- `__is_float` is Python's `float(x)` (a parameter: which words are numbers).  PdTriggerObject.py:34-44: numbers become `f`, no argument means
`b b`; the check looks at the list that was just changed (`obj_args` is the same list as `self.obj_args`, PdObject.py:46, if it is not empty) -/
def parse (isFloat : String → Bool) (args : List String) : Obj :=
  let l := args.map fun a => if isFloat a then "f" else a
  { args := if l = [] then ["b", "b"] else l
    warning := l = []
    error := l.any fun a => !["a", "f", "s", "b"].contains a }

/-- the loop over the casts, HLangSequence.py:44-54; `none`: exception -/
def castOf (a : String) : Option (Option Cast) :=
  if a ∈ ["a", "anything", "l", "list"] then some none
  else if a ∈ ["b", "bang"] then some (some .bang)
  else if a ∈ ["f", "float"] then some (some .float)
  else if a ∈ ["s", "symbol"] then some (some .symbol)
  else none

/-- from the text to the casts of the sequence; `none`: an error is reported -/
def casts (isFloat : String → Bool) (args : List String) : Option (List (Option Cast)) :=
  if (parse isFloat args).error then none else (parse isFloat args).args.mapM castOf

end Verif.Trigger
