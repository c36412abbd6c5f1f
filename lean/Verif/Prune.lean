/-!
Model of the removal of connections that come from unconnected inlets of subgraphs
(hvcc/core/hv2ir/HeavyGraph.py), the second pass of `prepare`.
-/

namespace Verif.Prune

/-- A connection: source object and outlet, destination object and inlet
(hvcc/core/hv2ir/Connection.py:24-50).  The type of the connection plays no role in this pass. -/
structure Conn where
  src : Nat
  outlet : Nat
  dst : Nat
  inlet : Nat
deriving DecidableEq

/-- A graph with its subgraphs: the number of the graph as an object of its parent, its inlet objects
sorted by index (`inlet_objs`, hvcc/core/hv2ir/HeavyGraph.py:74, 185-190) and its objects of type `__graph`
in the order of the dictionary `objs` (HeavyGraph.py:44-72, 480-488). -/
inductive Tree where
  | node (id : Nat) (inlets : List Nat) (subs : List Tree)

/-- `outlet_connections[0]` of an object is what leaves its outlet 0, `inlet_connections[i]` what arrives at
inlet `i` (HeavyIrObject.py:60-68, HeavyGraph.py:120-133).  Simplification: both lists are read off one list of
all connections of the patch, so that `disconnect_objects` (HeavyGraph.py:135-142) is one removal. -/
def into (L : List Conn) (o i : Nat) : List Conn := L.filter fun c => c.dst = o && c.inlet = i

/-- One inlet of the loop of `_remove_unused_inlet_connections`: if nothing is connected to inlet `i` of the graph,
all connections from outlet 0 of the inlet object are removed (HeavyGraph.py:480-485). -/
def one (id : Nat) (i x : Nat) (L : List Conn) : List Conn :=
  if into L id i = [] then L.filter fun c => !(c.src = x && c.outlet = 0) else L

/-- The loop over the inlets (HeavyGraph.py:480-485). -/
def loop (id : Nat) : Nat → List Nat → List Conn → List Conn
  | _, [], L => L
  | i, x :: xs, L => loop id (i + 1) xs (one id i x L)

mutual
/-- `HeavyGraph._remove_unused_inlet_connections` (HeavyGraph.py:474-488): the inlets of the graph itself,
then its subgraphs. -/
def prune : Tree → List Conn → List Conn
  | .node id inlets subs, L => pruneAll subs (loop id 0 inlets L)
/-- The recursive bit (HeavyGraph.py:487-488). -/
def pruneAll : List Tree → List Conn → List Conn
  | [], L => L
  | t :: ts, L => pruneAll ts (prune t L)
end

end Verif.Prune
