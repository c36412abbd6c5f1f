/-!
Reading the canvases of a Pd file: the boxes with their numbers, the cables, the subpatches and the `@hv_arg` comments,
hvcc/interpreters/pd2hv/PdParser.py:86-105, 185-213, 215-635.

The words of a statement are numbers here: `Verif.PdText` models how a file is cut into statements and words, `Verif.PdAbs`
which file an object is read from, `Verif.PdArray` the contents of arrays, `Verif.PdRemote` what is added at the end of a file.
-/
namespace Verif.PdFile

/-- a cable as it stands in the file: box, outlet, box, inlet -/
structure Cable where
  src : Nat
  outlet : Nat
  dst : Nat
  inlet : Nat
  deriving DecidableEq, Repr

/-- the statements -/
inductive Stmt
  | canvas (first full : Nat)  -- `#N canvas …`: the text of its first line in the file, and all of it
  | restore                    -- `#X restore x y pd name`
  | native (n : Nat)           -- `#X restore x y pd @hv_obj type …`
  | arg (n : Nat)              -- `#X text x y @hv_arg …`
  | box (n : Nat)              -- `#X obj`, `#X msg`, `#X text`, `#X floatatom`, `#X symbolatom`, `#X array`
  | connect (c : Cable)        -- `#X connect …`
  | skip                       -- `#X coords`, `#X f`, `#X declare`, `#A`
  deriving DecidableEq, Repr

/-! ### the `@hv_arg` lines -/

/-- the variables of `__get_hv_args`, PdParser.py:91-93.  The lists are shared with the dict: `cur` is the position in the
dict of the list that `hv_arg_list` refers to. -/
structure Pre where
  num : Int
  dict : List (Nat × List Nat)
  cur : Option Nat
  deriving DecidableEq, Repr

/-- `hv_arg_dict[key] = []`: a key that is there keeps its position -/
def setKey (k : Nat) (d : List (Nat × List Nat)) : List (Nat × List Nat) :=
  if k ∈ d.map Prod.fst then d.map fun e => if e.1 = k then (k, []) else e else d ++ [(k, [])]

/-- an index of a Python list of length `n` -/
def index (n : Nat) (i : Int) : Option Nat :=
  if 0 ≤ i then (if i.toNat < n then some i.toNat else none)
  else if 0 ≤ (n : Int) + i then some ((n : Int) + i).toNat else none

/-- one line, PdParser.py:95-104; `none`: an `IndexError` -/
def preStep (s : Pre) : Stmt → Option Pre
  | .canvas k _ => some ⟨s.num + 1, setKey k s.dict, some ((setKey k s.dict).map Prod.fst |>.idxOf k)⟩
  | .arg n => match s.cur with
    | some i => some { s with dict := s.dict.modify i fun e => (e.1, e.2 ++ [n]) }
    | none => some s
  | .restore | .native _ => match index s.dict.length (s.num - 1) with
    | some i => some ⟨s.num - 1, s.dict, some i⟩
    | none => none
  | _ => some s

/-- all lines -/
def pre : Pre → List Stmt → Option Pre
  | s, [] => some s
  | s, x :: xs => match preStep s x with
    | none => none
    | some s => pre s xs

/-- `__get_hv_args`, PdParser.py:86-105 -/
def hvArgs (f : List Stmt) : Option (List (Nat × List Nat)) := (pre ⟨-1, [], none⟩ f).map (·.dict)

/-! ### the canvases -/

/-- what the objects of a graph are: an object, or a graph with its arguments, objects and connections -/
inductive Node
  | leaf (n : Nat)
  | graph (args : List Nat) (nodes : List Node) (conns : List Cable)

/-- `graph_from_canvas` while it reads, PdParser.py:236-242 -/
structure Part where
  args : List Nat
  nodes : List Node
  conns : List Cable

/-- the loop of `graph_from_canvas`, PdParser.py:257-635: the finished object and what the iterator has not delivered yet;
`none`: an error is reported.  The first number bounds the number of statements.  Simplification: the two branches of
`#X connect` (PdGraph.py:95-121) for objects that are not there become an error. -/
def loop (dict : List (Nat × List Nat)) : Nat → Part → List Stmt → Option (Node × List Stmt)
  | 0, _, _ => none
  | _ + 1, p, [] => some (.graph p.args p.nodes p.conns, [])
  | _ + 1, p, .restore :: xs => some (.graph p.args p.nodes p.conns, xs)
  | _ + 1, _, .native n :: xs => some (.leaf n, xs)
  | k + 1, p, .canvas _ key :: xs => match dict.lookup key with
    | none => none
    | some a => match loop dict k ⟨a, [], []⟩ xs with
      | none => none
      | some (x, ys) => loop dict k { p with nodes := p.nodes ++ [x] } ys
  | k + 1, p, .arg n :: xs => loop dict k { p with nodes := p.nodes ++ [.leaf n] } xs
  | k + 1, p, .box n :: xs => loop dict k { p with nodes := p.nodes ++ [.leaf n] } xs
  | k + 1, p, .connect c :: xs =>
    if c.src < p.nodes.length ∧ c.dst < p.nodes.length then loop dict k { p with conns := p.conns ++ [c] } xs else none
  | k + 1, p, .skip :: xs => loop dict k p xs

/-- `graph_from_file`, PdParser.py:186-213: the first statement is the canvas of the file -/
def file (f : List Stmt) : Option Node :=
  match hvArgs f with
  | none => none
  | some dict => match f with
    | .canvas _ key :: xs => match dict.lookup key with
      | none => none
      | some a => (loop dict (xs.length + 1) ⟨a, [], []⟩ xs).map Prod.fst
    | _ => none

end Verif.PdFile
