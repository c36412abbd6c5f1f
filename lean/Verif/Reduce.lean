import Mathlib.Data.List.Basic
/-!
`HeavyGraph.reduce` (hvcc/core/hv2ir/HeavyGraph.py:604-643) for one graph: every HeavyLang operator object (`HLangBinop`,
`HLangUnop`, `HLangVar`) is replaced by HeavyIR objects and its connections are moved.

Objects are numbered; a new Python object gets the next unused number.  As in Python, a connection is stored twice: in a list at
the outlet it comes from and in a list at the inlet it goes to; both lists are updated step by step.  A Python exception is
`none`.

Simplifications: objects of other classes are left alone (their own `reduce` is not modelled); integer signals (`~i>`) and the two
`cast` objects are not modelled (`none`); the order in which the new objects of one step enter the dictionary (a Python set) is
fixed; subgraphs are reduced on their own, as in Python.
-/
namespace Verif.Reduce

/-- connection types, Connection.py:91-108: `-->`, `~f>`, `~i>` -/
inductive Ty | c | f | i
  deriving DecidableEq

/-- `Connection`, Connection.py:23-45; equality is that of the five fields (lines 110-114) -/
structure Conn where
  src : Nat
  outlet : Nat
  dst : Nat
  inlet : Nat
  ty : Ty
  deriving DecidableEq

/-- the objects -/
inductive Kind (α : Type)
  /-- HeavyLang binary operator with its argument `k`, HLangBinop.py:26-75 -/
  | binop (op : String) (k : α)
  /-- HeavyLang unary operator, HLangUnop.py:24-66 -/
  | unop (op : String)
  /-- HeavyLang `var` with its argument `k`, HLangVar.py:24-35 -/
  | var (k : α)
  /-- HeavyIR object with two signal inlets, such as `__add~f` -/
  | irBin (name : String)
  /-- HeavyIR control operator with the constant `k`, such as `__add`, `__add_k` -/
  | irBinC (name : String) (k : α)
  /-- HeavyIR unary signal object, such as `__neg~f` -/
  | irUn (name : String)
  /-- HeavyIR unary control object, such as `__abs` -/
  | irUnC (name : String)
  /-- `__var_k~f` -/
  | varK (k : α)
  /-- `__var~f` -/
  | varS (k : α)
  /-- `__varread~f` of the variable `y` -/
  | varRead (y : Nat)
  /-- `__var` -/
  | varC (k : α)
  /-- HeavyLang `send` with its name, HLangSend.py:24-41 -/
  | send (name : String)
  /-- HeavyLang `receive` with its name, HLangReceive.py:24-41 -/
  | receive (name : String)
  /-- `__var~f` made for a `send` (without an argument), HeavyGraph.py:557, 573 -/
  | varSig
  /-- `__varwrite~f` of the variable `y`, HeavyGraph.py:558, 575 -/
  | varWrite (y : Nat)
  /-- any other object -/
  | other (name : String)

variable {α : Type}

/-- a HeavyLang object that `reduce` replaces -/
def Kind.lang : Kind α → Bool
  | .binop .. | .unop .. | .var .. => true
  | _ => false

/-- a graph: `objs` in order, the class of every object, and the lists `inlet_connections`, `outlet_connections` of every
object, HeavyLangObject.py:100-115, HeavyGraph.py:55-60 -/
structure Graph (α : Type) where
  ids : List Nat
  kind : Nat → Kind α
  ins : Nat → Nat → List Conn
  outs : Nat → Nat → List Conn

/-- change one list -/
def set2 (m : Nat → Nat → List Conn) (a b : Nat) (l : List Conn) : Nat → Nat → List Conn :=
  fun p j => if p = a ∧ j = b then l else m p j

/-- `add_connection`, HeavyLangObject.py:231-242, at the outlet -/
def Graph.addOut (g : Graph α) (c : Conn) : Graph α := { g with outs := set2 g.outs c.src c.outlet (g.outs c.src c.outlet ++ [c]) }
/-- `add_connection`, HeavyLangObject.py:231-242, at the inlet -/
def Graph.addIn (g : Graph α) (c : Conn) : Graph α := { g with ins := set2 g.ins c.dst c.inlet (g.ins c.dst c.inlet ++ [c]) }

/-- `list.remove` raises an exception if the element is not there -/
def remove (c : Conn) (l : List Conn) : Option (List Conn) := if c ∈ l then some (l.erase c) else none

/-- `remove_connection`, HeavyLangObject.py:244-252, at the outlet -/
def Graph.removeOut (g : Graph α) (c : Conn) : Option (Graph α) := do
  let l ← remove c (g.outs c.src c.outlet)
  return { g with outs := set2 g.outs c.src c.outlet l }
/-- `remove_connection`, HeavyLangObject.py:244-252, at the inlet -/
def Graph.removeIn (g : Graph α) (c : Conn) : Option (Graph α) := do
  let l ← remove c (g.ins c.dst c.inlet)
  return { g with ins := set2 g.ins c.dst c.inlet l }

/-- `cc[0:i] + n_list + cc[i + 1:]` for `i = cc.index(c)`, HeavyLangObject.py:262-263 -/
def splice (c : Conn) (ns : List Conn) : List Conn → Option (List Conn)
  | [] => none
  | d :: l => if d = c then some (ns ++ l) else (splice c ns l).map (d :: ·)

/-- `replace_connection` at the object where `c` starts, HeavyLangObject.py:257-263 -/
def Graph.replaceOut (g : Graph α) (c : Conn) (ns : List Conn) : Option (Graph α) := do
  let l ← splice c ns (g.outs c.src c.outlet)
  return { g with outs := set2 g.outs c.src c.outlet l }
/-- `replace_connection` at the object where `c` ends, HeavyLangObject.py:264-267 -/
def Graph.replaceIn (g : Graph α) (c : Conn) (ns : List Conn) : Option (Graph α) := do
  let l ← remove c (g.ins c.dst c.inlet)
  return { g with ins := set2 g.ins c.dst c.inlet (l ++ ns) }

/-- `connect_objects`, HeavyGraph.py:120-133 -/
def Graph.connect (g : Graph α) (c : Conn) : Graph α := (g.addOut c).addIn c

/-- `disconnect_objects`, HeavyGraph.py:135-142; if the connection is a loop, `remove_connection` is called twice on the same
object and both times removes it from the inlet, which raises an exception the second time -/
def Graph.disconnect (g : Graph α) (c : Conn) : Option (Graph α) :=
  if c.src = c.dst then do
    let g ← g.removeIn c
    g.removeIn c
  else do
    let g ← g.removeOut c
    g.removeIn c

/-- `update_connection`, HeavyGraph.py:144-168.  For a loop, `replace_connection` at the end (line 158) works on the outlet,
as it does at the start. -/
def Graph.update (g : Graph α) : Option Conn × List Conn → Option (Graph α)
  | (none, ns) => some (ns.foldl Graph.connect g)
  | (some c, []) => g.disconnect c
  | (some c, n :: ns) =>
    if (n :: ns).all (·.src = c.src) then do
      let g ← g.replaceOut c (n :: ns)
      let g ← g.removeIn c
      return (n :: ns).foldl Graph.addIn g
    else if (n :: ns).all (·.dst = c.dst) then do
      let g ← if c.src = c.dst then g.replaceOut c (n :: ns) else g.replaceIn c (n :: ns)
      let g ← if c.src = c.dst then g.removeIn c else g.removeOut c
      return (n :: ns).foldl Graph.addOut g
    else none

/-- a list of updates, HeavyGraph.py:632-636 -/
def Graph.updates (g : Graph α) : List (Option Conn × List Conn) → Option (Graph α)
  | [] => some g
  | u :: us => do
    let g ← g.update u
    g.updates us

/-- several disconnections -/
def Graph.disconnects (g : Graph α) : List Conn → Option (Graph α)
  | [] => some g
  | c :: cs => do
    let g ← g.disconnect c
    g.disconnects cs

/-- number of inlets of the HeavyLang objects, HLangBinop.py:63, HLangUnop.py:58, `var`, `send`, `receive` in heavy.lang.json -/
def Kind.numInlets : Kind α → Nat
  | .binop .. => 2
  | .receive .. => 0
  | _ => 1

/-- all connections to the inlets of an object -/
def Graph.allIns (g : Graph α) (o : Nat) : List Conn := (List.range (g.kind o).numInlets).flatMap (g.ins o)

/-- `remove_object`, HeavyGraph.py:334-349, for a HeavyLang object (one outlet) -/
def Graph.removeObj (g : Graph α) (o : Nat) : Option (Graph α) := do
  let g ← g.disconnects (g.allIns o)
  let g ← g.disconnects (g.outs o 0)
  return { g with ids := g.ids.erase o }

/-- `add_object`, HeavyGraph.py:170-217, of a new object without connections -/
def Graph.addObj (g : Graph α) (n : Nat) (x : Kind α) : Graph α :=
  { ids := g.ids ++ [n], kind := fun p => if p = n then x else g.kind p
    ins := fun p i => if p = n then [] else g.ins p i, outs := fun p i => if p = n then [] else g.outs p i }

/-- one entry of `_get_connection_format`, HeavyLangObject.py:282-301: `_`, `c`, `f`, `i` or `m` -/
def fmt (l : List Conn) : Char :=
  if l = [] then '_'
  else if l.all (·.ty = .c) then 'c'
  else if l.all (·.ty = .f) then 'f'
  else if l.all (·.ty = .i) then 'i'
  else 'm'

/-- `__HEAVY_DICT` of HLangBinop.py:28-52 -/
def binDict : String → Option (List String)
  | "+" => some ["__add", "__add_k", "__add~f", "__add~i"]
  | "-" => some ["__sub", "__sub_k", "__sub~f", "__sub~i"]
  | "*" => some ["__mul", "__mul_k", "__mul~f", "__mul~i"]
  | "/" => some ["__div", "__div_k", "__div~f", "__div~i"]
  | "max" => some ["__max", "__max_k", "__max~f", "__max~i"]
  | "min" => some ["__min", "__min_k", "__min~f", "__min~i"]
  | ">" => some ["__gt", "__gt_k", "__gt~f", "__gt~i"]
  | ">=" => some ["__gte", "__gte_k", "__gte~f", "__gte~i"]
  | "==" => some ["__eq", "__eq_k", "__eq~f", "__eq~i"]
  | "!=" => some ["__neq", "__neq_k", "__neq~f", "__neq~i"]
  | "<" => some ["__lt", "__lt_k", "__lt~f", "__lt~i"]
  | "<=" => some ["__lte", "__lte_k", "__lte~f", "__lte~i"]
  | "&" => some ["__and", "__and_k", "__and~f", "__and~i"]
  | "&&" => some ["__logand", "__logand_k"]
  | "&!" => some ["__andnot", "__andnot~f", "__andnot~i"]
  | "|" => some ["__or", "__or_k", "__or~f", "__or~i"]
  | "||" => some ["__logor", "__logor_k"]
  | "pow" => some ["__pow", "__pow_k", "__pow~f", "__pow~i"]
  | "atan2" => some ["__atan2", "__atan2_k", "__atan2~f"]
  | "mod" => some ["__unimod", "__unimod_k"]
  | "%" => some ["__bimod", "__bimod_k"]
  | ">>" => some ["__shiftright", "__shiftright_k"]
  | "<<" => some ["__shiftleft", "__shiftleft_k"]
  | _ => none

/-- the name with the given ending, e.g. HLangBinop.py:85; an exception if there is none -/
def binName (op suffix : String) : Option String := do
  let l ← binDict op
  (l.filter fun s => suffix.toList.isSuffixOf s.toList).head?

/-- `__HEAVY_DICT[self.type][0]`, HLangBinop.py:182 -/
def binFirst (op : String) : Option String := do
  let l ← binDict op
  l.head?

/-- `__HEAVY_DICT` of HLangUnop.py:26-49, without the casts -/
def unDict : String → Option (List String)
  | "log" => some ["__log"]
  | "log10" => some ["__log10"]
  | "log2" => some ["__log2", "__log2~f"]
  | "cos" => some ["__cos", "__cos~f"]
  | "acos" => some ["__acos", "__acos~f"]
  | "cosh" => some ["__cosh", "__cosh~f"]
  | "acosh" => some ["__acosh", "__acosh~f"]
  | "sin" => some ["__sin", "__sin~f"]
  | "asin" => some ["__asin", "__asin~f"]
  | "sinh" => some ["__sinh", "__sinh~f"]
  | "asinh" => some ["__asinh", "__asin~f"]
  | "tan" => some ["__tan", "__tan~f"]
  | "atan" => some ["__atan", "__atan~f"]
  | "tanh" => some ["__tanh", "__tanh~f"]
  | "atanh" => some ["__atanh", "__atanh~f"]
  | "exp" => some ["__exp", "__exp~f"]
  | "sqrt" => some ["__sqrt", "__sqrt~f"]
  | "abs" => some ["__abs", "__abs~f", "__abs~i"]
  | "floor" => some ["__floor", "__floor~f"]
  | "ceil" => some ["__ceil", "__ceil~f"]
  | _ => none

/-- `ir_type in __HEAVY_DICT[self.type]` (an assertion), HLangUnop.py:84-97 -/
def unName (op ty : String) : Option String := do
  let l ← unDict op
  let n := "__" ++ op ++ ty
  if n ∈ l then some n else none

/-- what `reduce` of one object returns: the new objects (numbered from `n`) and the updates -/
abbrev Plan (α : Type) := List (Kind α) × List (Option Conn × List Conn)

/-- move the connections of one inlet to inlet `i` of object `x` -/
def toIn (l : List Conn) (x i : Nat) : List (Option Conn × List Conn) := l.map fun c => (some c, [{ c with dst := x, inlet := i }])
/-- move the connections of one outlet to outlet 0 of object `x` -/
def fromOut (l : List Conn) (x : Nat) : List (Option Conn × List Conn) := l.map fun c => (some c, [{ c with src := x, outlet := 0 }])

/-- `get_connection_move_list`, HeavyLangObject.py:271-280, for an object with one outlet (numbered 0).  Its filter argument is
not used, in Python either. -/
def Graph.moveList (g : Graph α) (o x : Nat) : List (Option Conn × List Conn) :=
  (List.range (g.kind o).numInlets).flatMap (fun i => toIn (g.ins o i) x i) ++ fromOut (g.outs o 0) x

/-- the cases of lines 107-111 of HLangBinop.py: adding or subtracting 0, multiplying or dividing by 1 -/
def isIdentity [DecidableEq α] [Zero α] [One α] (op : String) (k : α) : Bool :=
  (op = "+" && k = 0) || (op = "-" && k = 0) || (op = "*" && k = 1) || (op = "/" && k = 1)

/-- an identity, HLangBinop.py:112-136 -/
def Graph.reduceIdentity (g : Graph α) (n o : Nat) : Plan α :=
  match g.ins o 0 with
  | [] => ([], [])
  | [c] => ([], [(some c, (g.outs o 0).map fun v => { c with dst := v.dst, inlet := v.inlet })])
  | c :: cs => ([.irBin "__add~f"], toIn [c] n 0 ++ toIn cs n 1 ++ fromOut (g.outs o 0) n)

/-- the inlet format `f_` that is not an identity, HLangBinop.py:138-157 -/
def Graph.reduceConst [DecidableEq α] [Zero α] [One α] [Neg α] (g : Graph α) (n o : Nat) (op : String) (k : α) (x : String) :
    Plan α :=
  if op = "*" ∧ k = 0 then ([], [])
  else if op = "*" ∧ k = -1 then ([.irUn "__neg~f"], g.moveList o n)
  else ([.irBin x, .varK k], g.moveList o n ++ [(none, [⟨n + 1, 0, n, 1, .f⟩])])

/-- `HLangBinop.reduce`, HLangBinop.py:77-230 -/
def Graph.reduceBinop [DecidableEq α] [Zero α] [One α] [Neg α] (g : Graph α) (n o : Nat) (op : String) (k : α) :
    Option (Plan α) :=
  let l := fmt (g.ins o 0)
  let r := fmt (g.ins o 1)
  if (l = '_' ∧ (r = '_' ∨ r = 'c' ∨ r = 'f')) ∨ fmt (g.outs o 0) = '_' then some ([], [])
  else if l = 'f' ∧ r = 'f' then do
    let x ← binName op "~f"
    return ([.irBin x], g.moveList o n)
  else if l = 'f' ∧ r = 'c' then do
    let x ← binName op "~f"
    return ([.irBin x, .varS k, .varRead (n + 1)],
      (none, [⟨n + 2, 0, n, 1, .f⟩]) :: toIn (g.ins o 0) n 0 ++ toIn (g.ins o 1) (n + 1) 0 ++ fromOut (g.outs o 0) n)
  else if l = 'f' ∧ r = '_' then do
    let x ← binName op "~f"
    if isIdentity op k then return g.reduceIdentity n o
    else return g.reduceConst n o op k x
  else if l = 'c' ∧ r = 'c' then do
    let x ← binFirst op
    return ([.irBinC x k], g.moveList o n)
  else if l = 'c' ∧ r = '_' then do
    let x ← binName op "_k"
    return ([.irBinC x k], g.moveList o n)
  else if l = 'c' ∧ r = 'f' then do
    let x ← binName op "~f"
    return ([.irBin x, .varS 0, .varRead (n + 1)],
      (none, [⟨n + 2, 0, n, 0, .f⟩]) :: toIn (g.ins o 0) (n + 1) 0 ++ toIn (g.ins o 1) n 1 ++ fromOut (g.outs o 0) n)
  else none

/-- `HLangUnop.reduce`, HLangUnop.py:68-102 -/
def Graph.reduceUnop (g : Graph α) (n o : Nat) (op : String) : Option (Plan α) :=
  if fmt (g.ins o 0) = 'f' then do
    let x ← unName op "~f"
    return ([.irUn x], g.moveList o n)
  else if fmt (g.ins o 0) = 'c' then do
    let x ← unName op ""
    return ([.irUnC x], g.moveList o n)
  else none

/-- `HLangVar.reduce`, HLangVar.py:37-70 -/
def Graph.reduceVar (g : Graph α) (n o : Nat) (k : α) : Option (Plan α) :=
  let l := fmt (g.ins o 0)
  let r := fmt (g.outs o 0)
  if l = '_' ∧ r = 'f' then some ([.varK k], g.moveList o n)
  else if (l = '_' ∨ l = 'c') ∧ r = 'f' then
    some ([.varS k, .varRead n], toIn (g.ins o 0) n 0 ++ fromOut (g.outs o 0) (n + 1))
  else if (l = '_' ∨ l = 'c') ∧ (r = '_' ∨ r = 'c') then some ([.varC k], g.moveList o n)
  else none

/-- add the new objects, numbered from `n` -/
def Graph.addObjs (g : Graph α) (n : Nat) : List (Kind α) → Graph α
  | [] => g
  | x :: xs => (g.addObj n x).addObjs (n + 1) xs

/-- one object of the loop, HeavyGraph.py:611-641: the new graph and the next unused number -/
def Graph.reduceObj [DecidableEq α] [Zero α] [One α] [Neg α] (g : Graph α) (n o : Nat) : Option (Graph α × Nat) := do
  let plan : Option (Plan α) ← match g.kind o with
    | .binop op k => (g.reduceBinop n o op k).map some
    | .unop op => (g.reduceUnop n o op).map some
    | .var k => (g.reduceVar n o k).map some
    | _ => some none
  match plan with
  | none => return (g, n)
  | some (xs, us) =>
    let g := g.addObjs n xs
    let g ← g.updates us
    let g ← g.removeObj o
    return (g, n + xs.length)

/-- the loop over the objects that are there at the start, HeavyGraph.py:611 -/
def Graph.reduceObjs [DecidableEq α] [Zero α] [One α] [Neg α] (g : Graph α) (n : Nat) : List Nat → Option (Graph α × Nat)
  | [] => some (g, n)
  | o :: os => do
    let (g, n) ← g.reduceObj n o
    g.reduceObjs n os

/-- `reduce`, HeavyGraph.py:604-643 -/
def Graph.reduce [DecidableEq α] [Zero α] [One α] [Neg α] (g : Graph α) (n : Nat) : Option (Graph α × Nat) :=
  g.reduceObjs n g.ids

end Verif.Reduce
