import Verif.Message
import Verif.Hash
/-!
Model of the list objects of the control domain:
`HvControlSlice.c`, `HvControlPack.c` (hvcc/generators/ir2c/static), the generated `cSwitchcase_..._onMessage`
(hvcc/generators/ir2c/ControlSwitchcase.py) and the graphs built for `[unpack]`, `[route]`, `[select]`
(hvcc/interpreters/pd2hv/Pd{Unpack,Route,Select}Object.py).

Messages are values: a timestamp and a list of elements (their memory layout is the subject of `Verif.Message`; the
memory-level slice is at the end of this file).  Outputs are pairs (outlet, message), in the order they are sent.
-/
namespace Verif.Lists
open Verif.Msg (R Err Val)
open Verif.Mem

/-- a message: timestamp and elements -/
structure Msg where
  ts : Nat
  es : List Val
  deriving DecidableEq, Repr

/-- an outlet and what is sent there -/
abbrev Out := Nat × Msg

/-- `msg_getType(m,i)` and the data of element `i`, HvMessage.h:99-102: asserts that the element exists -/
def Msg.elem (m : Msg) (i : Nat) : R Val :=
  match m.es[i]? with
  | some v => .ok v
  | none => .error .assertFail

/-- `msg_isFloat(m,i)` and `msg_getFloat(m,i)`, HvMessage.h:120-127 -/
def Msg.float? (m : Msg) (i : Nat) : Option (BitVec 32) :=
  match m.es[i]? with
  | some (.float f) => some f
  | _ => none

/-- `msg_getHash` of an element, HvMessage.c:145-158 -/
def hashElem : Val → BitVec 32
  | .bang => 0xFFFFFFFF#32
  | .float f => f
  | .sym s => Hash.cHash true false s
  | .hash h => h

/-! ### slice -/

/-- `ControlSlice`, HvControlSlice.h: start and length -/
structure Slice where
  i : Int
  n : Int
  deriving DecidableEq, Repr

/-- `(int) f`: `none` when undefined; the conversion itself is a parameter -/
abbrev Conv := BitVec 32 → Option Int

/-- the conversion as a statement of the program -/
def conv (c : Conv) (f : BitVec 32) : R Int :=
  match c f with
  | some i => .ok i
  | none => .error .ub

/-- `cSlice_onMessage` inlet 0, HvControlSlice.c:28-44.  The number of elements is an `int`, so a negative start passes
the test and `&m->elem+o->i` points before the elements: undefined. -/
def sliceOut (o : Slice) (m : Msg) : R (List Out) :=
  if o.i < (m.es.length : Int) then
    if o.i < 0 then .error .ub
    else
      let x := (m.es.length : Int) - o.i
      let x := if o.n > 0 then min x o.n else x
      .ok [(0, ⟨m.ts, (m.es.drop o.i.toNat).take x.toNat⟩)]
  else .ok [(1, ⟨m.ts, [.bang]⟩)]

/-- `cSlice_onMessage`, HvControlSlice.c:25-62 -/
def sliceMsg (c : Conv) (o : Slice) (letIn : Nat) (m : Msg) : R (Slice × List Out) :=
  match letIn with
  | 0 => do .ok (o, ← sliceOut o m)
  | 1 =>
    match m.float? 0 with
    | some f => do
      let i ← conv c f
      match m.float? 1 with
      | some g => do .ok (⟨i, ← conv c g⟩, [])
      | none => .ok (⟨i, o.n⟩, [])
    | none => .ok (o, [])
  | 2 =>
    match m.float? 0 with
    | some f => do .ok (⟨o.i, ← conv c f⟩, [])
    | none => .ok (o, [])
  | _ => .ok (o, [])

/-- a history of messages (inlet, message) of an object with state `σ`: the final state, and what was sent for each -/
def runObj {σ : Type} (f : σ → Nat → Msg → R (σ × List Out)) : σ → List (Nat × Msg) → R (σ × List (List Out))
  | s, [] => .ok (s, [])
  | s, (i, m) :: es => do
    let (s, o) ← f s i m
    let (s, os) ← runObj f s es
    .ok (s, o :: os)

/-! ### pack -/

/-- the loop of `cPack_onMessage` inlet 0, HvControlPack.c:45-52 (file lines of the loop body), from `k - 1` down to 0;
a bang leaves its slot alone -/
def packLoop (m : Msg) : Nat → List Val → R (List Val)
  | 0, st => .ok st
  | k + 1, st => do
    let v ← m.elem k
    packLoop m k (match v with
      | .float f => st.set k (.float f)
      | .sym s => st.set k (.hash (hashElem (.sym s)))
      | .hash h => st.set k (.hash h)
      | .bang => st)

/-- `cPack_onMessage`, HvControlPack.c:39-67.  On the other inlets a symbol is taken from element 1 of the message
(line 60), so a message with one element fails the assertion of `msg_getSymbol`, and an element 1 that is not a symbol
is used as a pointer. -/
def packMsg (st : List Val) (letIn : Nat) (m : Msg) : R (List Val × List Out) :=
  match letIn with
  | 0 => do
    let st ← packLoop m (min st.length m.es.length) st
    .ok (st, [(0, ⟨m.ts, st⟩)])
  | j => do
    let v ← m.elem 0
    match v with
    | .float f => if j < st.length then .ok (st.set j (.float f), []) else .error .assertFail
    | .sym _ => do
      match ← m.elem 1 with
      | .sym s => if j < st.length then .ok (st.set j (.sym s), []) else .error .assertFail
      | _ => .error .ub
    | .hash h => if j < st.length then .ok (st.set j (.hash h), []) else .error .assertFail
    | .bang => .ok (st, [])

/-! ### the compiled graphs -/

/-- argument of `[route]` / `[select]`: a number (as the bit pattern of its `float`) or a name (code points) -/
inductive Case
  | num (f : BitVec 32)
  | name (s : List Nat)
  deriving DecidableEq, Repr

/-- `HeavyObject.get_hash` of a case, HeavyObject.py:163-203; `none` when it raises -/
def caseHash : Case → Option (BitVec 32)
  | .num f => some f
  | .name s => (Hash.pyHash s).map (BitVec.ofNat 32)

/-- the code points of `symbol` -/
def symbolStr : List Nat := [115, 121, 109, 98, 111, 108]

/-- position of the first `true` -/
def findCase (h : BitVec 32) : Nat → List (BitVec 32) → Option Nat
  | _, [] => none
  | k, c :: cs => if c = h then some k else findCase h (k + 1) cs

/-- generated `cSwitchcase_..._onMessage`, ControlSwitchcase.py:58-87, for cases with the given hashes: the outlet the
message leaves from (the last one when no case matches).  The C compiler rejects two cases with the same hash. -/
def switchcase (cases : List (BitVec 32)) (m : Msg) : R Nat := do
  let v ← m.elem 0
  let idx := if hashElem v = Hash.cHash true false (symbolStr.map (BitVec.ofNat 8)) then 1 else 0
  let w ← m.elem idx
  .ok ((findCase (hashElem w) 0 cases).getD cases.length)

/-- the graph of `[route]`, PdRouteObject.py:62-170: both outlets of `slice 1 -1` go to the outlet of the case -/
def route (cases : List (BitVec 32)) (m : Msg) : R (List Out) := do
  let k ← switchcase cases m
  if k < cases.length then do
    let os ← sliceOut ⟨1, -1⟩ m
    .ok (os.map fun o => (k, o.2))
  else .ok [(k, m)]

/-- the graph of `[select]`, PdSelectObject.py:58-160: a bang (`__cast_b`, HvControlCast.c:22-27) for the case -/
def select (cases : List (BitVec 32)) (m : Msg) : R (List Out) := do
  let k ← switchcase cases m
  if k < cases.length then .ok [(k, ⟨m.ts, [.bang]⟩)] else .ok [(k, m)]

/-- the graph of `[unpack]`, PdUnpackObject.py:66-105: slices `n-1` down to 0 of length 1; the bang outlet of a slice is
not connected -/
def unpack (m : Msg) : Nat → R (List Out)
  | 0 => .ok []
  | k + 1 => do
    let os ← sliceOut ⟨k, 1⟩ m
    let rest ← unpack m k
    .ok ((os.filter (·.1 = 0)).map (fun o => (k, o.2)) ++ rest)

/-! ### the slice in memory -/

/-- `cSlice_onMessage` inlet 0 when the start is inside the message, HvControlSlice.c:31-35: builds the message at
address `n` from the one at `m` -/
def sliceBytes (M : Mem) (o : Slice) (m n : Nat) : R Mem :=
  if o.i < 0 then .error .ub
  else do
    let x := (Msg.numElements M m : Int) - o.i
    let x := if o.n > 0 then min x o.n else x
    let M' ← Msg.init M n x.toNat (Msg.getTimestamp M m)
    .ok (memcpy M' (n + 8) (m + 8 + 16 * o.i.toNat) (16 * x.toNat))

end Verif.Lists
