import Verif.SignalTree
import Verif.Fma
/-!
`HeavyGraph.cascade_expansion` and `HeavyGraph.fma_replacement` (hvcc/core/hv2ir/HeavyGraph.py:645-740) for patches with
subpatches: both passes go through the objects of a graph in the order of `objs`, and into an object that is itself a graph.
-/
namespace Verif.Signal

/-- the objects of a graph (not those of its subpatches) -/
def Tree.flat (T : Tree) (s : Sub) : Graph := ⟨s.ids, T.obj⟩

/-- the objects of graph `g` are replaced by those of `G` -/
def Tree.setLevel (T : Tree) (g : Nat) (G : Graph) : Tree :=
  match T.sub g with
  | none => T
  | some s => { T with
      obj := fun p => if p ∈ G.ids then G.obj p else T.obj p
      sub := fun x => if x = g then some { s with ids := G.ids } else T.sub x }

/-- the (graph, object) pairs the passes come to, in their order: HeavyGraph.py:649, 689-690 and 698, 738-739.  The list of
the objects of a graph is copied when the graph is entered (`self.objs.copy()`); only the visit of that graph changes it.
The first argument bounds the nesting. -/
def Tree.visits (T : Tree) : Nat → Nat → List (Nat × Nat)
  | 0, _ => []
  | f + 1, g =>
    match T.sub g with
    | none => []
    | some s => s.ids.flatMap fun o => (g, o) :: T.visits f o

/-- the body of the loop of `cascade_expansion` at object `o` of graph `g`, HeavyGraph.py:650-687 -/
def Tree.cascadeAt (T : Tree) (n g o : Nat) : Tree × Nat :=
  match T.sub g with
  | none => (T, n)
  | some s =>
    let r := cascadeObj (T.flat s) n o (List.range (T.obj o).inlets.length)
    (T.setLevel g r.1, r.2)

/-- the loop -/
def Tree.cascadeAll (T : Tree) (n : Nat) : List (Nat × Nat) → Tree × Nat
  | [] => (T, n)
  | (g, o) :: vs =>
    let r := T.cascadeAt n g o
    r.1.cascadeAll r.2 vs

/-- `cascade_expansion` of the root graph, HeavyGraph.py:645-690 -/
def Tree.cascade (T : Tree) (n root : Nat) : Tree × Nat := T.cascadeAll n (T.visits (T.depth + 1) root)

/-- a patch with the types of its objects -/
structure KTree where
  t : Tree
  kind : Nat → Kind

/-- the body of the loop of `fma_replacement` at object `o` of graph `g`, HeavyGraph.py:699-736 -/
def KTree.fmaAt (k : KTree) (n g o : Nat) : KTree × Nat :=
  match k.t.sub g with
  | none => (k, n)
  | some s =>
    let r := KGraph.fmaStep ⟨k.t.flat s, k.kind⟩ n o
    (⟨k.t.setLevel g r.1.g, r.1.kind⟩, r.2)

/-- the loop -/
def KTree.fmaAll (k : KTree) (n : Nat) : List (Nat × Nat) → KTree × Nat
  | [] => (k, n)
  | (g, o) :: vs =>
    let r := k.fmaAt n g o
    r.1.fmaAll r.2 vs

/-- `fma_replacement` of the root graph, HeavyGraph.py:692-740 -/
def KTree.fma (k : KTree) (n root : Nat) : KTree × Nat := k.fmaAll n (k.t.visits (k.t.depth + 1) root)

/-- both passes in the order of `prepare`, HeavyGraph.py:455-460; the new objects of the first are additions -/
def Tree.passes (T : Tree) (K : Nat → Kind) (n root : Nat) : KTree × Nat :=
  let r := T.cascade n root
  KTree.fma ⟨r.1, fun p => if n ≤ p then .add else K p⟩ r.2 root

end Verif.Signal
