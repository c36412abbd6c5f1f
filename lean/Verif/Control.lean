import Mathlib.Data.List.Sort
/-!
Control messages: the part of the compiler that decides which object gets a message, and in which order.

* `HLangSequence.reduce` ([trigger]), hvcc/core/hv2ir/HLangSequence.py:43-88, applied by `HeavyGraph.reduce`, HeavyGraph.py:604-643
* `HeavyGraph.group_control_receivers`, HeavyGraph.py:742-785
* the control lists of the intermediate representation: `get_ir_control_list`, `get_ir_on_message` of HeavyIrObject.py:215-243,
  HeavyGraph.py:929-935, HIrOutlet.py:36-41, HIrSend.py:49-66
* the C functions made of these lists: `get_C_impl`, `_get_on_message_list` of HeavyObject.py:71-101, 137-151, ControlReceive.py,
  ControlSend.py, ControlCast.py

Objects of all graphs are named by different numbers.  Only control connections are considered (`c.is_control`; `HIrOutlet`
does not test this, which makes no difference when the connections of an outlet have one type, HeavyGraph.py:484-495).
-/
namespace Verif.Control

/-- an object and one of its inlets -/
abbrev Dest := Nat × Nat

variable {σ M : Type}

/-- What an object does with a message: it may read and replace the state of the context and send messages from its outlets, in
any order.  (`cXxx_onMessage` gets the function `cXxx_id_sendMessage` to be called for each message it sends.) -/
inductive Act (σ M : Type)
  | done
  | get (f : σ → Act σ M)
  | set (s : σ) (a : Act σ M)
  | send (outlet : Nat) (m : M) (a : Act σ M)

/-- what happens to a message at an inlet: an object acts, or the message is passed on at once (`visible`: this is noticed from
outside, namely by the send hook) -/
inductive Node (σ M : Type)
  | obj (a : Act σ M)
  | fwd (visible : Bool) (l : List (Dest × M))

/-- a system of objects that call one another -/
structure Sys (σ M : Type) where
  node : Dest → M → Node σ M
  out : Nat → Nat → List Dest

/-- calls one after the other; the state and the list of noticed calls -/
def sendAll (dlv : Dest × M → σ → Option (σ × List (Dest × M))) : List (Dest × M) → σ → Option (σ × List (Dest × M))
  | [], s => some (s, [])
  | x :: xs, s =>
    match dlv x s with
    | none => none
    | some (s, t) =>
      match sendAll dlv xs s with
      | none => none
      | some (s, t') => some (s, t ++ t')

/-- the body of an object -/
def execAct (dlv : Dest × M → σ → Option (σ × List (Dest × M))) (out : Nat → List Dest) :
    Act σ M → σ → Option (σ × List (Dest × M))
  | .done, s => some (s, [])
  | .get f, s => execAct dlv out (f s) s
  | .set s a, _ => execAct dlv out a s
  | .send k m a, s =>
    match sendAll dlv ((out k).map (·, m)) s with
    | none => none
    | some (s, t) =>
      match execAct dlv out a s with
      | none => none
      | some (s, t') => some (s, t ++ t')

/-- a call; the number bounds the depth of the stack (`none`: it is exceeded) -/
def Sys.deliver (S : Sys σ M) : Nat → Dest × M → σ → Option (σ × List (Dest × M))
  | 0, _, _ => none
  | n + 1, x, s =>
    match S.node x.1 x.2 with
    | .obj a => (execAct (S.deliver n) (S.out x.1.1) a s).map fun r => (r.1, x :: r.2)
    | .fwd v l => (sendAll (S.deliver n) l s).map fun r => (r.1, if v then x :: r.2 else r.2)

/-! ### patches -/

/-- the types of `__cast_b`, `__cast_f`, `__cast_s` -/
inductive Cast
  | bang | float | symbol
  deriving DecidableEq, Repr

/-- the kinds of objects; `none` in a sequence: pass the message on as it is (HLangSequence.py:46-47) -/
inductive Kind
  | obj
  | seq (l : List (Option Cast))
  | cast (c : Cast)
  | graph (inlets : List Nat)
  | inlet
  | outlet (graph : Nat) (index : Nat)
  | send (name : Nat)
  | recv
  deriving DecidableEq, Repr

/-- the connections `outlet_connections` of all objects, and the receivers registered under each name (LocalVars) -/
structure Patch where
  kind : Nat → Kind
  outs : Nat → List (List Dest)
  recvs : Nat → List Nat
  prio : Nat → Int

/-- the connections of outlet `k` -/
def Patch.out (p : Patch) (o k : Nat) : List Dest := (p.outs o)[k]?.getD []

/-! ### [trigger] -/

/-- HLangSequence.py:66-74: what replaces a connection to the sequence `s`; the cast of outlet `i` gets the number `n + i` -/
def seqTargets (p : Patch) (s : Nat) (l : List (Option Cast)) (n : Nat) : List Dest :=
  (List.range l.length).reverse.flatMap fun i =>
    match l[i]? with
    | some (some _) => [(n + i, 0)]
    | some none => p.out s i
    | none => []

/-- the kind of a new object -/
def castKind (l : List (Option Cast)) (i : Nat) : Kind :=
  match l[i]? with
  | some (some c) => .cast c
  | _ => .inlet

/-- `HLangSequence.reduce`, HLangSequence.py:43-88, with the connections updated by HeavyGraph.py:631-640: every connection to
`s` is replaced, in its place, by the list `seqTargets`; the casts get the connections of their outlets; `s` is removed. -/
def Patch.reduceSeq (p : Patch) (s : Nat) (l : List (Option Cast)) (n : Nat) : Patch where
  kind o := if o = s then .inlet else if n ≤ o ∧ o < n + l.length then castKind l (o - n) else p.kind o
  outs o :=
    if o = s then []
    else if n ≤ o ∧ o < n + l.length then [p.out s (o - n)]
    else (p.outs o).map fun ds => ds.flatMap fun d => if d = (s, 0) then seqTargets p s l n else [d]
  recvs := p.recvs
  prio := p.prio

/-- the loop of `HeavyGraph.reduce`, HeavyGraph.py:612-640, over all graphs, for the sequences among the objects -/
def Patch.reduceAll (p : Patch) (n : Nat) : List Nat → Patch × Nat
  | [] => (p, n)
  | o :: os =>
    match p.kind o with
    | .seq l => (p.reduceSeq o l n).reduceAll (n + l.length) os
    | _ => p.reduceAll n os

/-! ### receivers -/

/-- `receivers.sort(key=lambda x: x.args["priority"], reverse=True)`, HeavyGraph.py:776 (a stable sort) -/
def Patch.sorted (p : Patch) (name : Nat) : List Nat := (p.recvs name).mergeSort fun a b => decide (p.prio b ≤ p.prio a)

/-- one name, HeavyGraph.py:748-785: the new receiver `r` gets all connections, the old ones are removed -/
def Patch.groupName (p : Patch) (name r : Nat) : Patch where
  kind o := if o = r then .recv else p.kind o
  outs o := if o = r then [(p.sorted name).flatMap fun q => p.out q 0] else if o ∈ p.recvs name then [] else p.outs o
  recvs x := if x = name then [r] else p.recvs x
  prio := p.prio

/-- all names that have receivers, HeavyGraph.py:748 (`get_registered_objects_for_type` has no empty lists) -/
def Patch.group (p : Patch) (n : Nat) : List Nat → Patch × Nat
  | [] => (p, n)
  | name :: ns => if p.recvs name = [] then p.group n ns else (p.groupName name n).group (n + 1) ns

/-! ### control lists -/

/-- concatenation of results -/
def concatAll (f : Dest → Option (List Dest)) : List Dest → Option (List Dest)
  | [] => some []
  | d :: ds =>
    match f d with
    | none => none
    | some l => (concatAll f ds).map (l ++ ·)

/-- `get_ir_on_message`: HeavyIrObject.py:215-223; HeavyGraph.py:929-935 for a graph; HIrOutlet.py:36-41 for an outlet.
`none`: too deep a recursion, or no such inlet. -/
def Patch.onMessage (p : Patch) : Nat → Dest → Option (List Dest)
  | 0, _ => none
  | f + 1, d =>
    match p.kind d.1 with
    | .graph ins =>
      match ins[d.2]? with
      | some i => concatAll (p.onMessage f) (p.out i 0)
      | none => none
    | .outlet g k => concatAll (p.onMessage f) (p.out g k)
    | _ => some [d]

/-- results for several outlets -/
def allLists (f : List Dest → Option (List Dest)) : List (List Dest) → Option (List (List Dest))
  | [] => some []
  | x :: xs =>
    match f x with
    | none => none
    | some y => (allLists f xs).map (y :: ·)

/-- `get_ir_control_list`: HeavyIrObject.py:225-243, HIrSend.py:49-66 (a send has the list of the receivers of its name) -/
def Patch.controlList (p : Patch) (f : Nat) (o : Nat) : Option (List (List Dest)) :=
  match p.kind o with
  | .send name => (concatAll (p.onMessage f) ((p.recvs name).map (·, 0))).map ([·])
  | _ => allLists (concatAll (p.onMessage f)) (p.outs o)

/-- the intermediate representation: `control.sendMessage` -/
structure IR where
  kind : Nat → Kind
  sendMessage : Nat → List (List Dest)

/-- `to_ir`; `none`: an exception.  `ids` are the objects. -/
def Patch.toIR (p : Patch) (f : Nat) (ids : List Nat) : Option IR :=
  if ids.all fun o => (p.controlList f o).isSome then some ⟨p.kind, fun o => (p.controlList f o).getD []⟩ else none

/-- the function `cXxx_id_sendMessage(_c, letIn, m)`, HeavyObject.py:80-101: with one outlet `letIn` is not looked at -/
def IR.sends (ir : IR) (o k : Nat) : List Dest :=
  match ir.sendMessage o with
  | [l] => l
  | ls => ls[k]?.getD []

/-- objects and casts (parameters): what `cXxx_onMessage` does, and the result of `cCast_onMessage` (HvControlCast.c), which
sends one message or none -/
structure Env (σ M : Type) where
  beh : Nat → Nat → M → Act σ M
  cast : Cast → M → Option M

/-- the generated C code: ControlCast.py:44-49, ControlSend.py:29-62, ControlReceive.py:28-29.  Other kinds have no code. -/
def IR.code (ir : IR) (E : Env σ M) : Sys σ M where
  out := ir.sends
  node d m :=
    match ir.kind d.1 with
    | .obj => .obj (E.beh d.1 d.2 m)
    | .cast c =>
      match E.cast c m with
      | some m' => .fwd false ((ir.sends d.1 0).map (·, m'))
      | none => .fwd false []
    | .send _ => .fwd true ((ir.sends d.1 0).map (·, m))
    | .recv => .fwd false ((ir.sends d.1 0).map (·, m))
    | _ => .fwd false []

/-- the compiler: [trigger] objects in the order `os`, receivers, control lists -/
def Patch.compile (p : Patch) (n : Nat) (os names : List Nat) (f : Nat) : Option (Patch × IR) :=
  let r := p.reduceAll n os
  let q := r.1.group r.2 names
  (q.1.toIR f (List.range q.2)).map fun ir => (q.1, ir)

end Verif.Control
