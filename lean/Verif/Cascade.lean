import Verif.Signal
/-!
`HeavyGraph.cascade_expansion` and `HeavyGraph.fma_replacement` (hvcc/core/hv2ir/HeavyGraph.py:645-740) for one graph without
subgraphs.  Identifiers of new objects (random in Python, HeavyObject ids) are consecutive numbers from `n`, all of them unused.
-/
namespace Verif.Signal

/-- replace an object -/
def Graph.setObj (g : Graph) (o : Nat) (x : Obj) : Graph := { g with obj := fun p => if p = o then x else g.obj p }

/-- `add_object`, HeavyGraph.py:167-183, for an unused identifier -/
def Graph.addObj (g : Graph) (n : Nat) (x : Obj) : Graph := ⟨g.ids ++ [n], fun p => if p = n then x else g.obj p⟩

/-- a new `__add~f` with the given connections at its inlets and one connection at its outlet -/
def addObjF (a b : Conn) : Obj := ⟨[⟨[a], .zero⟩, ⟨[b], .zero⟩], [⟨some .f, 1, .zero⟩], true⟩

/-- the chain of `__add~f`, HeavyGraph.py:656-678: `l` comes from the left; the result has the next unused identifier and the
last connection.  (An `__add~f` is added here with the connections it will have: lines 656-664 the first one, 666-678 the
others, and its outlet is connected by line 670 or 681.) -/
def cascadeChain (g : Graph) (n : Nat) (l : Conn) : List Conn → Graph × Nat × Conn
  | [] => (g, n, l)
  | c :: cs => cascadeChain (g.addObj n (addObjF l c)) (n + 1) ⟨n, 0, true⟩ cs

/-- the connections of inlet `i` are replaced -/
def Obj.setConns (x : Obj) (i : Nat) (cs : List Conn) : Obj := { x with inlets := x.inlets.modify i fun l => { l with conns := cs } }

/-- one inlet, HeavyGraph.py:651-687: the signal connections move to the chain (their outlets keep the number of connections),
and the end of the chain is connected to the inlet -/
def cascadeInlet (g : Graph) (n o i : Nat) : Graph × Nat :=
  match (g.obj o).inlets[i]? with
  | none => (g, n)
  | some l =>
    match l.conns.filter (·.isSignal) with
    | c :: d :: cs =>
      let r := cascadeChain g n c (d :: cs)
      (r.1.setObj o ((g.obj o).setConns i (l.conns.filter (!·.isSignal) ++ [r.2.2])), r.2.1)
    | _ => (g, n)

/-- all inlets of an object, HeavyGraph.py:650 -/
def cascadeObj (g : Graph) (n o : Nat) : List Nat → Graph × Nat
  | [] => (g, n)
  | i :: is =>
    let r := cascadeInlet g n o i
    cascadeObj r.1 r.2 o is

/-- all objects, HeavyGraph.py:649 -/
def cascadeObjs (g : Graph) (n : Nat) : List Nat → Graph × Nat
  | [] => (g, n)
  | o :: os =>
    let r := cascadeObj g n o (List.range (g.obj o).inlets.length)
    cascadeObjs r.1 r.2 os

/-- `cascade_expansion`, HeavyGraph.py:645-690 -/
def Graph.cascade (g : Graph) (n : Nat) : Graph × Nat := cascadeObjs g n g.ids

end Verif.Signal
