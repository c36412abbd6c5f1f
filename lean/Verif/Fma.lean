import Verif.Cascade
/-!
`HeavyGraph.fma_replacement` (hvcc/core/hv2ir/HeavyGraph.py:692-740) for one graph without subgraphs.
-/
namespace Verif.Signal

/-- the object types that matter here -/
inductive Kind
  | mul | add | sub | fma | fms | other
  deriving DecidableEq, Repr

/-- a graph with the types of its objects -/
structure KGraph where
  g : Graph
  kind : Nat → Kind

/-- the connection at inlet `i`, if it is the only one (`len(inlet_connections[i]) == 1`, HeavyGraph.py:700-701, 706-707) -/
def Obj.single (x : Obj) (i : Nat) : Option Conn :=
  match x.inlets[i]? with
  | some l => match l.conns with
    | [c] => some c
    | _ => none
  | none => none

/-- the number of connections at outlet 0 -/
def Obj.out0 (x : Obj) : Nat :=
  match x.outlets with
  | l :: _ => l.conns
  | [] => 0

/-- (object, inlet) of the connections from outlet 0 of `o` (`outlet_connections[0]`; here in the order of the objects) -/
def Graph.users (g : Graph) (o : Nat) : List (Nat × Nat) :=
  g.ids.flatMap fun q => (g.obj q).inlets.zipIdx.flatMap fun l => (l.1.conns.filter fun c => c.src = o ∧ c.outlet = 0).map fun _ => (q, l.2)

/-- what `fma_replacement` finds at a multiplication: the addition or subtraction, and the connections that will be `a * b + c`
or `a * b - c` -/
structure Match where
  q : Nat
  a : Conn
  b : Conn
  c : Conn
  kind : Kind

/-- the condition, HeavyGraph.py:699-708 -/
def KGraph.fmaMatch (k : KGraph) (o : Nat) : Option Match :=
  if k.kind o = .mul ∧ (k.g.obj o).out0 = 1 then
    match (k.g.obj o).single 0, (k.g.obj o).single 1, k.g.users o with
    | some a, some b, (q, i) :: _ =>
      if (k.kind q = .add ∨ (k.kind q = .sub ∧ i = 0)) ∧ 0 < (k.g.obj q).out0 then
        match (k.g.obj q).single 0, (k.g.obj q).single 1 with
        | some x, some y => some ⟨q, a, b, if i = 0 then y else x, if k.kind q = .add then .fma else .fms⟩
        | _, _ => none
      else none
    | _, _, _ => none
  else none

/-- connections from `q` become connections from `n`: HeavyGraph.py:729-731 (added at the end) and line 736 (the old ones are
removed) -/
def moveSrc (q n : Nat) (cs : List Conn) : List Conn :=
  (cs.filter fun c => c.src ≠ q) ++ (cs.filter fun c => c.src = q).map fun c => { c with src := n }

/-- `moveSrc` at all inlets -/
def Obj.moveSrc (q n : Nat) (x : Obj) : Obj := { x with inlets := x.inlets.map fun l => { l with conns := Signal.moveSrc q n l.conns } }

/-- the replacement, HeavyGraph.py:710-736 -/
def KGraph.fmaApply (k : KGraph) (n o : Nat) (m : Match) : KGraph where
  g := ⟨(k.g.ids ++ [n]).filter fun p => p ≠ o ∧ p ≠ m.q, fun p =>
    if p = n then ⟨[⟨[m.a], .zero⟩, ⟨[m.b], .zero⟩, ⟨[m.c], .zero⟩], [⟨some .f, (k.g.obj m.q).out0, .zero⟩], true⟩
    else (k.g.obj p).moveSrc m.q n⟩
  kind p := if p = n then m.kind else k.kind p

/-- one object -/
def KGraph.fmaStep (k : KGraph) (n o : Nat) : KGraph × Nat :=
  match k.fmaMatch o with
  | some m => (k.fmaApply n o m, n + 1)
  | none => (k, n)

/-- the loop, HeavyGraph.py:698 -/
def KGraph.fmaAll (k : KGraph) (n : Nat) : List Nat → KGraph × Nat
  | [] => (k, n)
  | o :: os =>
    let r := k.fmaStep n o
    r.1.fmaAll r.2 os

/-- `fma_replacement`, HeavyGraph.py:692-740 -/
def KGraph.fma (k : KGraph) (n : Nat) : KGraph × Nat := k.fmaAll n k.g.ids

end Verif.Signal
