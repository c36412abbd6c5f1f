/-!
Inlets and outlets of a subpatch: `PdGraph.add_object`, hvcc/interpreters/pd2hv/PdGraph.py:75-93, the JSON of the graph
(PdGraph.py:213-229, PdLetObject.py:39-52) and the sorting in `HeavyGraph.add_object`, hvcc/core/hv2ir/HeavyGraph.py:170-195.
-/
namespace Verif.PdLets

/-- the types of objects that matter here; `other` is everything else -/
inductive Kind
  | inlet | inletSig | outlet | outletSig | other
  deriving DecidableEq, Repr

/-- `obj.obj_type in ["inlet", "inlet~"]`, PdGraph.py:79 -/
def Kind.isIn : Kind → Bool
  | .inlet | .inletSig => true
  | _ => false

/-- `obj.obj_type in ["outlet", "outlet~"]`, PdGraph.py:85 -/
def Kind.isOut : Kind → Bool
  | .outlet | .outletSig => true
  | _ => false

/-- an object of the patch: its id, type and horizontal position -/
structure Obj where
  id : Nat
  kind : Kind
  x : Int
  deriving DecidableEq, Repr

/-- put `o` behind the elements whose key is not greater -/
def insertBy {α : Type} (key : α → Int) (o : α) : List α → List α
  | [] => [o]
  | a :: as => if key a ≤ key o then a :: insertBy key o as else o :: a :: as

/-- Python's `list.sort(key=…)`: a stable sort (all stable sorts have the same result; this is insertion sort) -/
def sortBy {α : Type} (key : α → Int) (l : List α) : List α := l.foldl (fun acc o => insertBy key o acc) []

/-- `for i, o in enumerate(objs): o.let_index = i`, PdGraph.py:83-84, 88-89; `idx`: the `let_index` of every object -/
def enumerate : Nat → List Obj → (Nat → Nat) → Nat → Nat
  | _, [], idx => idx
  | i, o :: os, idx => enumerate (i + 1) os fun k => if k = o.id then i else idx k

/-- the state of a `PdGraph` -/
structure Graph where
  objs : List Obj
  inlets : List Obj
  outlets : List Obj
  letIndex : Nat → Nat

/-- PdGraph.py:43-46, PdLetObject.py:32 -/
def empty : Graph := ⟨[], [], [], fun _ => 0⟩

/-- `PdGraph.add_object`, PdGraph.py:75-93 -/
def addObject (g : Graph) (o : Obj) : Graph :=
  let g := { g with objs := g.objs ++ [o] }
  if o.kind.isIn then
    let l := sortBy Obj.x (g.inlets ++ [o])
    { g with inlets := l, letIndex := enumerate 0 l g.letIndex }
  else if o.kind.isOut then
    let l := sortBy Obj.x (g.outlets ++ [o])
    { g with outlets := l, letIndex := enumerate 0 l g.letIndex }
  else g

/-- the objects of a file, added one after the other -/
def parse (file : List Obj) : Graph := file.foldl addObject empty

/-- `get_inlet_connection_type(i)`, PdGraph.py:152-153 and PdObject.py:121-126: is the connection a signal connection?
`none`: `IndexError` -/
def inletIsSignal (g : Graph) (i : Nat) : Option Bool := (g.inlets[i]?).map fun o => o.kind = .inletSig

/-- an object in the JSON of the graph: its id, type and `args["index"]` -/
structure HvObj where
  id : Nat
  kind : Kind
  index : Int
  deriving DecidableEq, Repr

/-- `to_hv`, PdGraph.py:223 (`objects`, in the order of the file) and PdLetObject.py:39-52; the index of an object that is
no inlet or outlet is not used -/
def toHv (g : Graph) : List HvObj := g.objs.map fun o => ⟨o.id, o.kind, g.letIndex o.id⟩

/-- `HeavyGraph.add_object`, HeavyGraph.py:185-195: the lists `inlet_objs` and `outlet_objs` -/
def hvAdd (s : List HvObj × List HvObj) (o : HvObj) : List HvObj × List HvObj :=
  if o.kind.isIn then (sortBy HvObj.index (s.1 ++ [o]), s.2)
  else if o.kind.isOut then (s.1, sortBy HvObj.index (s.2 ++ [o]))
  else s

/-- the graph that hv2ir reads; a connection to inlet `i` of the subpatch goes to `inlet_objs[i]`, HeavyGraph.py:353-361 -/
def hvRead (objs : List HvObj) : List HvObj × List HvObj := objs.foldl hvAdd ([], [])

/-- from the objects of the file to the ids of the inlets of the compiled subgraph -/
def inlets (file : List Obj) : List Nat := (hvRead (toHv (parse file))).1.map (·.id)

/-- … and of its outlets -/
def outlets (file : List Obj) : List Nat := (hvRead (toHv (parse file))).2.map (·.id)

end Verif.PdLets
