import Verif.Reduce
/-!
`HeavyGraph.remap_send_receive` (hvcc/core/hv2ir/HeavyGraph.py:527-603): `send~`/`receive~` and `throw~`/`catch~` become writes and
reads of shared variables.  The graph operations are those of `Verif.Reduce`.

Simplifications: the objects of all subgraphs are in one graph (the connections changed here start and end in the same subgraph,
and an object is added to or removed from the subgraph of the send or receive it stands for); the registered objects of a name
(`LocalVars`, LocalVars.py:54-92) are those of the graph, in its order.
-/
namespace Verif.Reduce

variable {α : Type}

/-- the name of a send or a receive -/
def Kind.letter : Kind α → Option String
  | .send m => some m
  | .receive m => some m
  | _ => none

/-- is it `send` with this name? -/
def Kind.isSend (name : String) : Kind α → Bool
  | .send m => m = name
  | _ => false

/-- is it `receive` with this name? -/
def Kind.isReceive (name : String) : Kind α → Bool
  | .receive m => m = name
  | _ => false

/-- `sends_dict[name]` and `receives_dict[name]` for every name, HeavyGraph.py:535-536, `get_registered_objects_for_type`,
LocalVars.py:83-92.  A name without sends is skipped at once (HeavyGraph.py:551), as if it were not in `sends_dict`. -/
def Graph.letters (g : Graph α) : List (String × List Nat × List Nat) :=
  (g.ids.filterMap fun o => (g.kind o).letter).eraseDups.map fun m =>
    (m, g.ids.filter fun s => (g.kind s).isSend m, g.ids.filter fun r => (g.kind r).isReceive m)

/-- several sends: one variable and one `__varwrite~f` each, HeavyGraph.py:573-579 -/
def Graph.writeAll (g : Graph α) (n : Nat) : List Nat → Option (Graph α)
  | [] => some g
  | s :: ss => do
    let g := (g.addObj n .varSig).addObj (n + 1) (.varWrite n)
    let g ← g.updates (toIn (g.ins s 0) (n + 1) 0)
    g.writeAll (n + 2) ss

/-- the reads at one receive: variables `n`, `n + 2`, ..., object numbers from `m` on, into the `__add~f` number `a`;
HeavyGraph.py:585-594 -/
def Graph.readVars (g : Graph α) (n m a : Nat) : Nat → List Nat → Graph α
  | _, [] => g
  | i, _ :: ss =>
    let g := g.addObj (m + i) (.varRead (n + 2 * i))
    let g := g.connect ⟨m + i, 0, a, if i = 0 then 0 else 1, .f⟩
    g.readVars n m a (i + 1) ss

/-- several sends: one `__add~f` for every receive, HeavyGraph.py:581-597 -/
def Graph.readAll (g : Graph α) (n : Nat) (ss : List Nat) (m : Nat) : List Nat → Option (Graph α × Nat)
  | [] => some (g, m)
  | r :: rs => do
    let g := g.addObj m (.irBin "__add~f")
    let g := g.readVars n (m + 1) m 0 ss
    let g ← g.updates ((g.outs r 0).map fun c => (some c, [{ c with src := m }]))
    g.readAll n ss (m + 1 + ss.length) rs

/-- one send: a `__varread~f` for every receive, HeavyGraph.py:567-571 -/
def Graph.readOne (g : Graph α) (y m : Nat) : List Nat → Option (Graph α × Nat)
  | [] => some (g, m)
  | r :: rs => do
    let g := g.addObj m (.varRead y)
    let g ← g.updates ((g.outs r 0).map fun c => (some c, [{ c with src := m }]))
    g.readOne y (m + 1) rs

/-- `remove_object` for several objects, HeavyGraph.py:600-603 -/
def Graph.removeObjs (g : Graph α) : List Nat → Option (Graph α)
  | [] => some g
  | o :: os => do
    let g ← g.removeObj o
    g.removeObjs os

/-- one name with the signal sends `ss` and the receives `rs`, HeavyGraph.py:551-603 -/
def Graph.remapName (g : Graph α) (n : Nat) (ss rs : List Nat) : Option (Graph α × Nat) :=
  match ss with
  | [] => some (g, n)
  | [s] => do
    let g := (g.addObj n .varSig).addObj (n + 1) (.varWrite n)
    let g ← g.updates ((g.ins s 0).map fun c => (some c, [{ c with dst := n + 1 }]))
    let (g, n) ← g.readOne n (n + 2) rs
    let g ← g.removeObjs [s]
    let g ← g.removeObjs rs
    return (g, n)
  | ss => do
    let g ← g.writeAll n ss
    let (g, m) ← g.readAll n ss (n + 2 * ss.length) rs
    let g ← g.removeObjs ss
    let g ← g.removeObjs rs
    return (g, m)

/-- the loop over the names, HeavyGraph.py:538-603; `has_inlet_connection_format("f")` is line 547 -/
def Graph.remapNames (g : Graph α) (n : Nat) : List (String × List Nat × List Nat) → Option (Graph α × Nat)
  | [] => some (g, n)
  | (_, ss, rs) :: l => do
    let (g, n) ← g.remapName n (ss.filter fun s => fmt (g.ins s 0) = 'f') rs
    g.remapNames n l

/-- `remap_send_receive`, HeavyGraph.py:527-603 -/
def Graph.remap (g : Graph α) (n : Nat) : Option (Graph α × Nat) := g.remapNames n g.letters

end Verif.Reduce
