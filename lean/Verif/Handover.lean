import Verif.PdFile
/-!
How a canvas crosses from the Pd reader to the compiler: hvcc/interpreters/pd2hv/PdGraph.py:223-238 (`to_hv`), Connection.py:36-70, and
hvcc/core/hv2ir/HeavyParser.py:113-181 (`graph_from_object`), HeavyGraph.py:120-134, 170-217, HeavyLangObject.py:75-85, 231-242.

Names of objects are numbers (`obj_id`, drawn at random, PdObject.py:47-49).  Simplifications: one canvas (a subpatch in it is a box, its own
contents cross in the same way); what a box is (its type and its arguments) is some `α` that both sides know; the type of a connection
is left out.
-/
namespace Verif.Handover
open Verif.PdFile (Cable)
variable {α : Type}

/-- an object of a `PdGraph`: its name, what it is (`none`: a comment), the numbers of its inlets and outlets -/
structure Box (α : Type) where
  id : Nat
  what : Option α
  ins : Nat
  outs : Nat

/-- a connection in the file between the two programs, Connection.py:37-49 -/
structure Conn where
  src : Nat
  outlet : Nat
  dst : Nat
  inlet : Nat
  deriving DecidableEq, Repr

/-- `{o.obj_id: o.to_hv() for o in …}`: an object with a name that is there takes its place, PdGraph.py:232 -/
def put (d : List (Box α)) (b : Box α) : List (Box α) :=
  if b.id ∈ d.map (·.id) then d.map fun x => if x.id = b.id then b else x else d ++ [b]

/-- the objects in the file, PdGraph.py:232 -/
def objects (bs : List (Box α)) : List (Box α) := bs.foldl put []

/-- a connection in the file, PdGraph.py:103-108, 233; `none`: there is no such object -/
def conn (bs : List (Box α)) (c : Cable) : Option Conn :=
  match bs[c.src]?, bs[c.dst]? with
  | some x, some y => some ⟨x.id, c.outlet, y.id, c.inlet⟩
  | _, _ => none

/-- an object of a `HeavyGraph`, HeavyLangObject.py:75-85 -/
structure Obj (α : Type) where
  id : Nat
  what : α
  ins : List (List Conn)
  outs : List (List Conn)

/-- the objects of the graph, HeavyParser.py:128-170, HeavyGraph.py:170-217: comments are left out -/
def added (d : List (Box α)) : List (Obj α) :=
  d.filterMap fun b => b.what.map fun w => ⟨b.id, w, List.replicate b.ins [], List.replicate b.outs []⟩

/-- `add_connection`, HeavyLangObject.py:231-242; `none`: the exception for a let that is not there -/
def Obj.add (c : Conn) (o : Obj α) : Option (Obj α) :=
  if c.dst = o.id then
    if c.inlet < o.ins.length then some { o with ins := o.ins.modify c.inlet (· ++ [c]) } else none
  else if c.src = o.id then
    if c.outlet < o.outs.length then some { o with outs := o.outs.modify c.outlet (· ++ [c]) } else none
  else none

/-- the object `i` takes the connection -/
def addAt (i : Nat) (c : Conn) : List (Obj α) → Option (List (Obj α))
  | [] => none
  | o :: l => if o.id = i then (o.add c).map (· :: l) else (addAt i c l).map (o :: ·)

/-- `connect_objects`, HeavyGraph.py:120-134, HeavyParser.py:173-179; `none`: a `KeyError` or an exception -/
def connect (g : List (Obj α)) (c : Conn) : Option (List (Obj α)) :=
  if c.src ∈ g.map (·.id) ∧ c.dst ∈ g.map (·.id) then (addAt c.src c g).bind (addAt c.dst c) else none

/-- all connections -/
def connects : List (Obj α) → List Conn → Option (List (Obj α))
  | g, [] => some g
  | g, c :: cs => (connect g c).bind fun g => connects g cs

/-- what the compiler makes of a canvas that the reader has read -/
def handover (bs : List (Box α)) (cs : List Cable) : Option (List (Obj α)) :=
  (cs.mapM (conn bs)).bind (connects (added (objects bs)))

end Verif.Handover
