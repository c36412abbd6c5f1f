import Verif.ControlExpr
/-!
Dollar arguments: `PdParser.__resolve_object_args`, hvcc/interpreters/pd2hv/PdParser.py:676-732, and
`HeavyGraph.resolve_arguments`, hvcc/core/hv2ir/HeavyGraph.py:87-118.
-/
namespace Verif.Dollar
open Verif.ControlExpr (Text scan replace isDigit number)

/-! ### Pd -/

/-- the match of `\$(\d+)` at the start of the text: the digits -/
def refAt : Text → List Text
  | '$' :: d :: cs => if isDigit d then [d :: cs.takeWhile isDigit] else []
  | _ => []

/-- `RE_DOLLAR.findall(a)`, PdParser.py:58, 695 -/
def findRefs : Text → List Text
  | [] => []
  | c :: cs => refAt (c :: cs) ++ findRefs cs

/-- the value of `$x`: a text; an error is reported and nothing is replaced; the whole argument becomes `None` -/
inductive Val
  | text (t : Text) | missing | unresolved
  deriving DecidableEq, Repr

/-- the graph: `obj_args` (with `$0`) as text, the defaults of `hv_args` (`none`: required), `raise_on_failure`, `is_root` -/
structure Ctx where
  objArgs : List Text
  hvArgs : List (Option Text)
  raise : Bool
  root : Bool

/-- PdParser.py:697-729 -/
def Ctx.value (c : Ctx) (x : Nat) : Val :=
  match c.objArgs[x]? with
  | some t => .text t
  | none =>
    match c.hvArgs[x - 1]? with
    | some (some t) => .text t
    | some none => .missing
    | none => if c.root || c.raise then .text ['0'] else .unresolved

/-- the result for one argument; `crash`: the assertion of line 696 fails -/
inductive Res
  | ok (t : Text) | null | crash
  deriving DecidableEq, Repr

/-- the loop over the set of references, in any order; PdParser.py:695-729 -/
def Ctx.loop (c : Ctx) : List Text → Res → Res
  | [], r => r
  | m :: ms, .ok a =>
    match c.value (number m) with
    | .text t => c.loop ms (.ok (replace ('\\' :: '$' :: m) t a))
    | .missing => c.loop ms (.ok a)
    | .unresolved => c.loop ms .null
  | _ :: _, _ => .crash

/-! ### Heavy -/

/-- the value of an argument: text or something else, such as a number, with its text `str(…)` -/
inductive Arg
  | str (t : Text)
  | other (v : Nat) (t : Text)
  deriving DecidableEq, Repr

/-- `str(v)` -/
def Arg.text : Arg → Text
  | .str t => t
  | .other _ t => t

/-- the loop over the arguments of the graph, HeavyGraph.py:97-109 -/
def heavyLoop : List (Text × Arg) → Text → Arg
  | [], s => .str s
  | (k, v) :: as, s =>
    if s = '$' :: k then v
    else heavyLoop as (replace ('$' :: k) v.text s)

/-- one argument; `none`: it is removed, HeavyGraph.py:93-117.  (A value that is replaced as a whole by a text with `$` is removed.) -/
def heavyResolve (as : List (Text × Arg)) (s : Text) : Option Arg :=
  if '$' ∈ s then
    match heavyLoop as s with
    | .str t => if '$' ∈ t then none else some (.str t)
    | v => some v
  else some (.str s)

end Verif.Dollar
