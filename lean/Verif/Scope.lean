/-!
Named objects and scopes: hvcc/core/hv2ir/LocalVars.py:55-86, `add_object`, `__register_named_object`,
`__unregister_named_object`, `resolve_objects_for_name` and `resolve_object_for_name` of hvcc/core/hv2ir/HeavyGraph.py:170-306.
-/
namespace Verif.Scope

/-- a graph, as the path to the root: the graph `x :: p` is inside the graph `p`, and `[]` is the root graph -/
abbrev Graph := List Nat

/-- `obj.scope`, HeavyLangObject.py:87-92 -/
inductive Scp
  | priv | prot | pub | other
  deriving DecidableEq, Repr

/-- `obj.type`, as far as the functions here tell types apart -/
inductive Typ
  | receive | irReceive | send | irSend | table | irTable | var | other
  deriving DecidableEq, Repr

/-- an object; `id` stands for its identity -/
structure Obj where
  id : Nat
  typ : Typ
  scope : Scp
  static : Bool
  name : Option String
  graph : Graph
  deriving DecidableEq, Repr

/-- an object in the `__REGISTERED_OBJ_DICT` of the graph `level`, under `name` -/
structure Entry where
  level : Graph
  name : String
  obj : Obj
  deriving DecidableEq, Repr

/-- the dictionaries of all graphs, in order of registration.  (A simplification: one list for all dictionaries.) -/
abbrev Reg := List Entry

/-- `get_objects_for_name`, LocalVars.py:76-82 -/
def Reg.objects (R : Reg) (g : Graph) (name : String) (ts : List Typ) : List Obj :=
  (R.filter fun e => e.level = g && e.name = name && ts.contains e.obj.typ).map (·.obj)

/-- `register_object`, LocalVars.py:55-68; `none`: exception -/
def Reg.register (R : Reg) (g : Graph) (o : Obj) (name : String) (static unique : Bool) : Option Reg :=
  let objs := R.objects g name [o.typ]
  if (unique && decide (objs.length > 0)) || (static && decide (objs.length > 1)) then none
  else if objs.length = 1 && static then some R
  else some (R ++ [⟨g, name, o⟩])

/-- `get_root_graph`, HeavyGraph.py:313-322 -/
def root (_ : Graph) : Graph := []

/-- `self.graph if self.graph is not None else self`, HeavyGraph.py:236, 261 -/
def above : Graph → Graph
  | [] => []
  | _ :: p => p

/-- the graph whose dictionary is used, HeavyGraph.py:231-243, 257-268; `none`: exception -/
def place (g : Graph) (o : Obj) (static : Bool) : Option Graph :=
  if o.scope = .priv ∧ static = false then some g
  else if o.scope = .prot then some (above g)
  else if o.scope = .pub ∨ static = true then some (root g)
  else none

/-- the cases of `add_object`, HeavyGraph.py:202-217: `(static, unique)` for the types that are registered -/
def Obj.mode (o : Obj) : Option (Bool × Bool) :=
  match o.typ with
  | .receive | .irReceive | .send | .irSend => some (false, false)
  | .table | .irTable => some (o.static, true)
  | .var => if o.name = none then none else some (o.static, true)
  | .other => none

/-- `add_object`, HeavyGraph.py:170-243, as far as names are concerned; the object gets `graph := g` (line 182) -/
def Reg.add (R : Reg) (g : Graph) (o : Obj) : Option Reg :=
  let o := { o with graph := g }
  match o.mode with
  | none => some R
  | some (static, unique) =>
    match o.name with
    | none => none
    | some name =>
      match place g o static with
      | none => none
      | some h => R.register h o name static unique

/-- `remove_object`, HeavyGraph.py:334-351, as far as names are concerned: only sends and receives are unregistered;
`list.remove` raises an exception if the object is not there -/
def Reg.remove (R : Reg) (g : Graph) (o : Obj) : Option Reg :=
  match o.typ with
  | .receive | .irReceive | .send | .irSend =>
    match o.name with
    | none => none
    | some name =>
      match place g o false with
      | none => none
      | some h => if ⟨h, name, o⟩ ∈ R then some (R.erase ⟨h, name, o⟩) else none
  | _ => some R

/-- the objects of one level, HeavyGraph.py:285-286 -/
def Reg.level (R : Reg) (here loc : Graph) (name : String) (ts : List Typ) : List Obj :=
  (R.objects here name ts).filter fun o => !(o.scope = .priv && o.graph ≠ loc)

/-- `resolve_objects_for_name`, HeavyGraph.py:270-292 -/
def Reg.resolveFrom (R : Reg) (loc : Graph) (name : String) (ts : List Typ) : Graph → List Obj
  | [] => R.level [] loc name ts
  | x :: p => R.level (x :: p) loc name ts ++ R.resolveFrom loc name ts p

def Reg.resolve (R : Reg) (g : Graph) (name : String) (ts : List Typ) : List Obj := R.resolveFrom g name ts g

/-- `resolve_object_for_name`, HeavyGraph.py:294-306 -/
def Reg.resolveOne (R : Reg) (g : Graph) (name : String) (ts : List Typ) : Option Obj := (R.resolve g name ts).head?

end Verif.Scope
