/-!
Abstractions in Pd patches: which file an object is read from, and the recursion of the parser,
`graph_from_file` / `graph_from_canvas`, hvcc/interpreters/pd2hv/PdParser.py:166-480, with `is_abstraction_on_call_stack`,
hvcc/interpreters/pd2hv/PdGraph.py:175-185.

Paths and object names are numbers.  Python's limit for the depth of calls is a parameter; only the frames of
`graph_from_file` and `graph_from_canvas` are counted.
-/
namespace Verif.PdAbs

abbrev Path := Nat
abbrev Name := Nat

/-- the statements of a file that matter here, after the first `#N canvas` -/
inductive Line
  | canvas          -- `#N canvas …`: a subpatch begins
  | restore         -- `#X restore …`: it ends
  | obj (n : Name)  -- `#X obj x y n …`
  deriving DecidableEq, Repr

/-- the file system and the library -/
structure Env where
  /-- `find_abstraction_path(dirname(path), name)`, PdParser.py:141-164 -/
  find : Path → Name → Option Path
  /-- `name.hv.json` in lib/pd_converted or lib/heavy_converted, PdParser.py:380-395 -/
  converted : Name → Bool
  /-- `name.pd` in lib/pd, lib/heavy, lib/else or lib, PdParser.py:398-466 -/
  lib : Name → Option Path
  /-- an object of `__PD_CLASSES` or a number, PdParser.py:469-484 -/
  builtin : Name → Bool
  /-- the lines of a file -/
  file : Path → List Line

/-- how an object is read -/
inductive Action
  | read (q : Path)
  | leaf
  | unknown
  deriving DecidableEq, Repr

/-- PdParser.py:370-493.  While a graph is being parsed it has no parent (`obj.parent_graph` is set by `add_object`, which is
called when the graph is finished), so that `is_abstraction_on_call_stack(abs_path)` is `self.__pd_path == abs_path`. -/
def action (E : Env) (p : Path) (n : Name) : Action :=
  let other :=
    if E.converted n then .leaf
    else match E.lib n with
      | some q => .read q
      | none => if E.builtin n then .leaf else .unknown
  match E.find p n with
  | some q => if q = p then other else .read q
  | none => other

/-- the result of parsing: the number of errors that were added to graphs, the number of files that were read, and the lines
that the iterator has not delivered yet -/
structure Out where
  errs : Nat
  opened : Nat
  rest : List Line
  deriving DecidableEq, Repr

/-- what happened before -/
def Out.add (o : Out) (errs opened : Nat) : Out := { o with errs := errs + o.errs, opened := opened + o.opened }

/-- the loop of `graph_from_canvas`, PdParser.py:260-635.  `sub`: the recursive call for a subpatch, `abs`: `graph_from_file`;
`none`: the call raises a `RecursionError`.  It is caught by the `try` around the loop, which adds an error and ends the graph
(`g.is_root` is true, see above).  The number bounds the number of rounds: the loop is started with the number of lines. -/
def loop (E : Env) (sub : List Line → Option Out) (abs : Path → Option Out) (p : Path) : Nat → List Line → Out
  | 0, ls => ⟨0, 0, ls⟩
  | _ + 1, [] => ⟨0, 0, []⟩
  | _ + 1, .restore :: ls => ⟨0, 0, ls⟩
  | k + 1, .canvas :: ls =>
    match sub ls with
    | none => ⟨1, 0, ls⟩
    | some o => (loop E sub abs p k o.rest).add o.errs o.opened
  | k + 1, .obj n :: ls =>
    match action E p n with
    | .leaf => loop E sub abs p k ls
    | .unknown => (loop E sub abs p k ls).add 1 0
    | .read q =>
      match abs q with
      | none => ⟨1, 0, ls⟩
      | some o => (loop E sub abs p k ls).add o.errs o.opened

/-- `graph_from_canvas` with `d` frames left -/
def canvas (E : Env) : Nat → Path → List Line → Option Out
  | 0, _, _ => none
  | d + 1, p, ls =>
    some (loop E (canvas E d p)
      (fun q => match d with
        | 0 => none
        | e + 1 => (canvas E e q (E.file q)).map fun o => o.add 0 1) p ls.length ls)

/-- `graph_from_file` with `d` frames left -/
def file (E : Env) : Nat → Path → Option Out
  | 0, _ => none
  | d + 1, q => (canvas E d q (E.file q)).map fun o => o.add 0 1

/-! ### hv2ir -/

/-- what hv2ir sees: the objects of an `.hv.json` file (those of its subgraphs too: a subgraph has the same file and search
paths as the graph around it) -/
structure HvEnv where
  /-- `find_path_for_abstraction`, hvcc/core/hv2ir/HeavyGraph.py:324-332: depends on the files of the enclosing graphs -/
  find : List Path → Name → Option Path
  /-- `get_class_for_type(type) is not None or is_ir(type)`, HeavyParser.py:165-173 -/
  known : Name → Bool
  objs : Path → List Name

/-- the end of reading a file -/
inductive Res
  | ok        -- the graph
  | raised    -- a `HeavyException`
  | depth     -- the bound of the model was reached
  deriving DecidableEq, Repr

/-- the loop over the objects, `graph_from_object`, HeavyParser.py:135-179; `chain`: the files on the path stack, the current one
first.  Every graph removes its file from the stack when it is finished (HeavyParser.py:199-202), so the stack is the chain. -/
def hvLoop (E : HvEnv) (next : Path → Res) (chain : List Path) : List Name → Res
  | [] => .ok
  | n :: ns =>
    match (match E.find chain n with
      | some q => if q ∉ chain then next q else if E.known n then .ok else .raised
      | none => if E.known n then .ok else .raised) with
    | .ok => hvLoop E next chain ns
    | r => r

/-- `graph_from_file`, HeavyParser.py:65-95 (the files on the stack have absolute paths); the number bounds the depth -/
def hvFile (E : HvEnv) : Nat → List Path → Path → Res
  | 0, _, _ => .depth
  | d + 1, chain, q => if q ∈ chain then .raised else hvLoop E (hvFile E d (q :: chain)) (q :: chain) (E.objs q)

end Verif.PdAbs
