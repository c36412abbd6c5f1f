import Mathlib.Data.List.Basic
import Mathlib.Data.Finset.Basic
/-!
The types of cables: hvcc/interpreters/pd2hv/PdGraph.py:91-106 gives every cable a type when it is read, and
hvcc/core/hv2ir/HeavyLangObject.py:327-375 with HeavyGraph.py:502-525 resolves those that were left open.  One graph; subgraphs
(whose inlets and outlets have types of their own when they come from Pd) are objects like the others here.
-/
namespace Verif.CableTypes

/-- `-->`, `~f>`, `~i>` and `-~>` (open) -/
inductive Ty
  | c | f | i | m
  deriving DecidableEq, Repr

/-- PdGraph.add_parsed_connection, PdGraph.py:97-99: the type of the outlet, and if that is open, the type of the inlet -/
def parsed (outlet inlet : Ty) : Ty := if outlet = .m then inlet else outlet

/-- the graph: the cables are numbered; `outs o` are those of object `o`, outlet by outlet, in the order of the lists; `decl o j` is the
type of outlet `j` of `o` in heavy.lang.json -/
structure Gr where
  objs : List Nat
  src : Nat → Nat
  outlet : Nat → Nat
  dst : Nat → Nat
  inlet : Nat → Nat
  outs : Nat → List Nat
  ins : Nat → List Nat
  decl : Nat → Nat → Ty

/-- the types that the cables have now, the objects dealt with, and whether an error was reported -/
structure St where
  ty : Nat → Ty
  seen : List Nat
  err : Bool

/-- the rule for an open outlet, HeavyLangObject.py:335-346, by the set of types at the left inlet; `none` reports an error -/
def rule (l : List Ty) : Option Ty :=
  if l = [] then some .c
  else if ∀ t ∈ l, t = .c then some .c
  else if ∀ t ∈ l, t = .f then some .f
  else if ∀ t ∈ l, t = .i then some .i
  else if ∀ t ∈ l, t = .m then some .m
  else if ∀ t ∈ l, t = .c ∨ t = .f then some .f
  else if ∀ t ∈ l, t = .c ∨ t = .i then some .i
  else none

/-- `_resolved_outlet_type`, HeavyLangObject.py:327-351 -/
def Gr.resolved (g : Gr) (ty : Nat → Ty) (o j : Nat) : Option Ty :=
  if g.decl o j = .m then rule (((g.ins o).filter fun k => g.inlet k = 0).map ty) else some (g.decl o j)

/-- one cable of `o`, HeavyLangObject.py:367-373 -/
def Gr.one (g : Gr) (o k : Nat) (s : St) : St :=
  if s.ty k = .m then
    match g.resolved s.ty o (g.outlet k) with
    | some .m | none => { s with err := true }
    | some t => { s with ty := fun x => if x = k then t else s.ty x }
  else s

/-- `_resolve_connection_types`, HeavyLangObject.py:353-375; the first argument bounds the depth of Python's recursion -/
def Gr.visit (g : Gr) : Nat → Nat → St → St
  | 0, _, s => s
  | n + 1, o, s =>
    if o ∈ s.seen then s
    else (g.outs o).foldl (fun s k => g.visit n (g.dst k) (g.one o k s)) { s with seen := o :: s.seen }

/-- `is_root`, HeavyLangObject.py:322-325 -/
def Gr.root (g : Gr) (o : Nat) : Bool := g.ins o = []

/-- HeavyGraph.py:514-516: from all the objects without incoming cables -/
def Gr.run (g : Gr) (ty : Nat → Ty) : St :=
  (g.objs.filter g.root).foldl (fun s o => g.visit g.objs.length o s) ⟨ty, [], false⟩

end Verif.CableTypes
