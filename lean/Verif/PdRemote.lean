/-!
Remote messages of message boxes (`\; receiver message`) and the send and receive names of GUI boxes: the objects and
connections that the Pd parser adds for them, hvcc/interpreters/pd2hv/PdParser.py:240-242, 491-541, 566-590, 636-674, with
`add_object` and `add_parsed_connection`, PdGraph.py:75-121, and `add_connection`, PdObject.py:128-136.

Names and messages are numbers.  The types of connections, and objects that are no message or GUI boxes, are left out.
-/
namespace Verif.PdRemote

/-- a connection: object and outlet, object and inlet -/
structure Conn where
  src : Nat
  outlet : Nat
  dst : Nat
  inlet : Nat
  deriving DecidableEq, Repr

/-- an object of the graph -/
inductive Node
  | other              -- any object that was in the file
  | msg (m : Nat)      -- a message box with only the local message `m`
  | send (r : Nat)
  | receive (r : Nat)
  deriving DecidableEq, Repr

/-- the objects and connections of a `PdGraph` -/
structure Graph where
  nodes : List Node
  conns : List Conn
  errors : Nat
  deriving DecidableEq, Repr

/-- the statements of one canvas.  `gui`: the names the box sends to and receives from, if they are not `empty`;
`msg`: the remote messages, each with its receiver; `obj`: everything else that makes an object, subpatches too. -/
inductive Line
  | obj
  | gui (send receive : Option Nat)
  | msg (remotes : List (Nat × Nat))
  | connect (c : Conn)
  deriving DecidableEq, Repr

/-- `PdGraph.add_object`, PdGraph.py:75-93 (the inlets and outlets are in `Verif.PdLets`) -/
def Graph.add (g : Graph) (n : Node) : Graph := { g with nodes := g.nodes ++ [n] }

/-- `PdGraph.add_parsed_connection`, PdGraph.py:95-121 -/
def Graph.connect (g : Graph) (c : Conn) : Graph :=
  if c.src < g.nodes.length ∧ c.dst < g.nodes.length then { g with conns := g.conns ++ [c] }
  else { g with errors := g.errors + 1 }

/-- the variables of `graph_from_canvas`: `g`, `msg_send`, `gui_send`, `gui_recv` (the dicts keep the order in which the
keys came) -/
structure State where
  g : Graph
  msgSend : List (Nat × List (Nat × Nat))
  guiSend : List (Nat × Nat)
  guiRecv : List (Nat × Nat)

/-- PdParser.py:240-242 -/
def start : State := ⟨⟨[], [], 0⟩, [], [], []⟩

/-- one statement: PdParser.py:491-519, 566-590 -/
def step (s : State) : Line → State
  | .obj => { s with g := s.g.add .other }
  | .gui snd rcv =>
    { s with g := s.g.add .other,
             guiSend := s.guiSend ++ (match snd with | some n => [(s.g.nodes.length, n)] | none => []),
             guiRecv := s.guiRecv ++ (match rcv with | some n => [(s.g.nodes.length, n)] | none => []) }
  | .msg remotes => { s with g := s.g.add .other, msgSend := s.msgSend ++ [(s.g.nodes.length, remotes)] }
  | .connect c => { s with g := s.g.connect c }

/-- `get_inlet_connections()["0"]`: a connection of an object to itself counts as a connection of an outlet only,
PdObject.py:128-136 -/
def inletConns (g : Graph) (b : Nat) : List Conn := g.conns.filter fun c => c.dst = b ∧ c.inlet = 0 ∧ c.src ≠ b

/-- PdParser.py:641-656: one remote message; `conns`: the connections to the box -/
def addRemote (conns : List Conn) (g : Graph) (r : Nat × Nat) : Graph :=
  let m := g.nodes.length
  let g := g.add (.msg r.2)
  let s := g.nodes.length
  let g := g.add (.send r.1)
  let g := conns.foldl (fun g c => g.connect ⟨c.src, 0, m, 0⟩) g
  g.connect ⟨m, 0, s, 0⟩

/-- PdParser.py:637-639 -/
def addMsg (g : Graph) (b : Nat × List (Nat × Nat)) : Graph := b.2.foldl (addRemote (inletConns g b.1)) g

/-- PdParser.py:659-664 -/
def addSend (g : Graph) (b : Nat × Nat) : Graph := (g.add (.send b.2)).connect ⟨b.1, 0, g.nodes.length, 0⟩

/-- PdParser.py:667-672 -/
def addRecv (g : Graph) (b : Nat × Nat) : Graph := (g.add (.receive b.2)).connect ⟨g.nodes.length, 0, b.1, 0⟩

/-- PdParser.py:636-674 -/
def finish (s : State) : Graph := s.guiRecv.foldl addRecv (s.guiSend.foldl addSend (s.msgSend.foldl addMsg s.g))

/-- a canvas that is a file of its own (a patch or an abstraction): its statements end with the file -/
def file (ls : List Line) : Graph := finish (ls.foldl step start)

/-- a subpatch: the statement `#X restore` at its end returns the graph at once, PdParser.py:318-320 -/
def subpatch (ls : List Line) : Graph := (ls.foldl step start).g

end Verif.PdRemote
