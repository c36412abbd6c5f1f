import Mathlib.Data.Rat.Floor
import Mathlib.Algebra.Order.Ring.Rat
import Verif.Props.Control
import Verif.LibAttr
/-!
Control objects inside a patch: the classes of objects the abstractions of `hvcc/interpreters/pd2hv/libs/pd/` are made of, as
behaviours of `Verif.Control` (the semantics of patches that the compiled program is proved to have, C45), and the scheduler that
delivers the messages of `__delay`.

Numbers are exact rationals; names are compared as strings, not by their hashes (C16, C38).
-/
namespace Verif.Lib
open Verif.Control (Dest Kind Cast Patch Act Sys Env Big)

/-- an element of a message -/
inductive Atom
  | bang
  | float (q : ℚ)
  | sym (s : String)
  deriving DecidableEq

abbrev Msg := List Atom

/-- binary operators, HvControlBinop.c:24-65 -/
inductive Op
  | add | sub | mul | div | intdiv | mod | max | min | eq | neq | lt | le | gt | ge | and | or
  deriving DecidableEq, Repr

/-- unary operators computed exactly, HvControlUnop.c:35-43 -/
inductive Un
  | floor | ceil | abs
  deriving DecidableEq, Repr

/-- an element of a message box: a constant or `$n` (numbered from 0) -/
inductive Elem
  | lit (a : Atom)
  | arg (n : Nat)

/-- the classes of objects, with their arguments -/
inductive Cls
  | none
  | var (a : Atom)
  | ite (k : ℚ)
  | bin (op : Op) (k : ℚ)
  | bink (op : Op) (k : ℚ)
  | un (op : Un)
  | fn (f : String)
  | pow (k : ℚ)
  | powk (k : ℚ)
  | switch (cases : List Atom)
  | slice (i n : Nat)
  | pack (l : List ℚ)
  | msg (l : List Elem)
  | tabread (t : Nat)
  | tabwrite (t : Nat)
  | system
  | delay (ms : ℚ)
  | print
  | probe (k : Nat)

/-- an object of a patch: kind, connections of each outlet, class -/
structure Node where
  kind : Kind
  outs : List (List Dest)
  cls : Cls

/-- a message in the message queue: due time, the `__delay` object that scheduled it, and what it will send -/
structure Pend where
  time : Nat
  obj : Nat
  msg : Msg
  deriving DecidableEq

/-- the state of the context: the time, what each object keeps, the tables, the message queue and what has come out of the
abstraction (time, outlet, message) -/
structure St where
  now : Nat
  mem : Nat → List Atom
  tab : Nat → List ℚ
  q : List Pend
  log : List (Nat × Nat × Msg)

/-- sample rate, names of tables, and the functions of the C mathematical library: `fn "sin"` and so on of one number (`hv_sin_f`...,
HvMath.h), and `powf`; the SIMD width (a build option, HvUtils.h:34-111) -/
structure Ctx where
  sr : ℚ
  tabId : String → Option Nat
  fn : String → ℚ → ℚ
  powf : ℚ → ℚ → ℚ
  simd : Nat

/-- an object's memory is replaced -/
def St.set (s : St) (o : Nat) (v : List Atom) : St := { s with mem := fun x => if x = o then v else s.mem x }

/-- a table is replaced -/
def St.setTab (s : St) (t : Nat) (v : List ℚ) : St := { s with tab := fun x => if x = t then v else s.tab x }

/-- the number kept by an object -/
def num : List Atom → ℚ
  | .float q :: _ => q
  | _ => 0

/-- C: conversion to `int` (in range) -/
def trunc (q : ℚ) : Int := if q < 0 then ⌈q⌉ else ⌊q⌋

/-- 1 or 0 -/
def tf (p : Prop) [Decidable p] : ℚ := if p then 1 else 0

/-- `cBinop_perform_op`, HvControlBinop.c:24-65 -/
def Op.eval : Op → ℚ → ℚ → ℚ
  | .add, f, k => f + k
  | .sub, f, k => f - k
  | .mul, f, k => f * k
  | .div, f, k => if k ≠ 0 then f / k else 0
  | .intdiv, f, k => if trunc k ≠ 0 then (((trunc f).tdiv (trunc k) : Int) : ℚ) else 0
  | .mod, f, k =>
    let r : ℚ := if k = 0 then 0 else (((trunc f).tmod (trunc k) : Int) : ℚ)
    if r < 0 then r + |k| else r
  | .max, f, k => Max.max f k
  | .min, f, k => Min.min f k
  | .eq, f, k => tf (f = k)
  | .neq, f, k => tf (f ≠ k)
  | .lt, f, k => tf (f < k)
  | .le, f, k => tf (f ≤ k)
  | .gt, f, k => tf (f > k)
  | .ge, f, k => tf (f ≥ k)
  | .and, f, k => if f = 0 ∨ k = 0 then 0 else 1
  | .or, f, k => if f = 0 ∧ k = 0 then 0 else 1

/-- what an object does: its new state, and at most one message from an outlet -/
abbrev Res := St × Option (Nat × Msg)

/-- `cVar_onMessage`, HvControlVar.c:35-84 -/
def varStep (o i : Nat) (m : Msg) (s : St) : Res :=
  match i, m with
  | 0, .bang :: _ => (s, some (0, s.mem o))
  | 0, .float q :: _ => (s.set o [.float q], some (0, m))
  | 0, .sym x :: _ => (s.set o [.sym x], some (0, m))
  | 1, .float q :: _ => (s.set o [.float q], none)
  | 1, .sym x :: _ => (s.set o [.sym x], none)
  | _, _ => (s, none)

/-- `cIf_onMessage`, HvControlIf.c:24-43 (the number is kept instead of its truth value) -/
def iteStep (o i : Nat) (m : Msg) (s : St) : Res :=
  match i, m with
  | 0, m => (s, some (if num (s.mem o) = 0 then 0 else 1, m))
  | 1, .float q :: _ => (s.set o [.float q], none)
  | _, _ => (s, none)

/-- `cBinop_onMessage`, HvControlBinop.c:67-93 -/
def binStep (op : Op) (o i : Nat) (m : Msg) (s : St) : Res :=
  match i, m with
  | 0, .float f :: .float k :: _ => (s.set o [.float k], some (0, [.float (op.eval f k)]))
  | 0, .float f :: _ => (s, some (0, [.float (op.eval f (num (s.mem o)))]))
  | 1, .float k :: _ => (s.set o [.float k], none)
  | _, _ => (s, none)

/-- `cBinop_k_onMessage`, HvControlBinop.c:95-107 -/
def binkStep (op : Op) (k : ℚ) (m : Msg) (s : St) : Res :=
  match m with
  | .float f :: .float k :: _ => (s, some (0, [.float (op.eval f k)]))
  | .float f :: _ => (s, some (0, [.float (op.eval f k)]))
  | _ => (s, none)

/-- `cUnop_onMessage`, HvControlUnop.c:19-50 -/
def unStep (op : Un) (m : Msg) (s : St) : Res :=
  match m with
  | .float f :: _ => (s, some (0, [.float (match op with | .floor => (⌊f⌋ : ℚ) | .ceil => (⌈f⌉ : ℚ) | .abs => |f|)]))
  | _ => (s, none)

/-- the unary operators that use the C library, HvControlUnop.c:23-46, with their guards -/
def fnEval (c : Ctx) (n : String) (f : ℚ) : ℚ :=
  if n = "sqrt" then (if f > 0 then c.fn "sqrt" f else 0)
  else if n = "log" then (if f > 0 then c.fn "log" f else 0)
  else if n = "log2" then (if f > 0 then 1.442695040888963 * c.fn "log" f else 0)
  else if n = "log10" then (if f > 0 then 0.434294481903252 * c.fn "log" f else 0)
  else c.fn n f

/-- `cUnop_onMessage`, HvControlUnop.c:19-50, with such an operator -/
def fnStep (c : Ctx) (n : String) (m : Msg) (s : St) : Res :=
  match m with
  | .float f :: _ => (s, some (0, [.float (fnEval c n f)]))
  | _ => (s, none)

/-- `HV_BINOP_POW`, HvControlBinop.c:61 -/
def powEval (c : Ctx) (f k : ℚ) : ℚ := if f > 0 then c.powf f k else 0

/-- `cBinop_onMessage`, HvControlBinop.c:67-93, with `HV_BINOP_POW` -/
def powStep (c : Ctx) (o i : Nat) (m : Msg) (s : St) : Res :=
  match i, m with
  | 0, .float f :: .float k :: _ => (s.set o [.float k], some (0, [.float (powEval c f k)]))
  | 0, .float f :: _ => (s, some (0, [.float (powEval c f (num (s.mem o)))]))
  | 1, .float k :: _ => (s.set o [.float k], none)
  | _, _ => (s, none)

/-- `cBinop_k_onMessage`, HvControlBinop.c:95-107, with `HV_BINOP_POW` -/
def powkStep (c : Ctx) (k : ℚ) (m : Msg) (s : St) : Res :=
  match m with
  | .float f :: .float k :: _ => (s, some (0, [.float (powEval c f k)]))
  | .float f :: _ => (s, some (0, [.float (powEval c f k)]))
  | _ => (s, none)

/-- the element `__switchcase` looks at, ControlSwitchcase.py:62-69 (a lone `symbol`: F29) -/
def key : Msg → Atom
  | .sym "symbol" :: a :: _ => a
  | a :: _ => a
  | [] => .bang

/-- `__switchcase`, ControlSwitchcase.py:45-89 -/
def switchStep (cases : List Atom) (m : Msg) (s : St) : Res :=
  (s, some (cases.findIdx (fun c => decide (c = key m)), m))

/-- `cSlice_onMessage`, HvControlSlice.c:25-65, inlet 0 (the other inlets are not used by the abstractions); `n = 0` stands for -1 -/
def sliceStep (i n : Nat) (m : Msg) (s : St) : Res :=
  (s, some (if i < m.length then (0, if n = 0 then m.drop i else (m.drop i).take n) else (1, [.bang])))

/-- new values in the place of old ones; bangs change nothing -/
def overlay : List Atom → Msg → List Atom
  | v :: vs, .bang :: m => v :: overlay vs m
  | _ :: vs, a :: m => a :: overlay vs m
  | vs, _ => vs

/-- `cPack_onMessage`, HvControlPack.c:39-70 (a symbol at a right inlet: the second element is read there, not modelled) -/
def packStep (o i : Nat) (m : Msg) (s : St) : Res :=
  match i, m with
  | 0, m => (s.set o (overlay (s.mem o) m), some (0, overlay (s.mem o) m))
  | i, .float q :: _ => (s.set o ((s.mem o).set i (.float q)), none)
  | _, _ => (s, none)

/-- a message box with one local message, ControlMessage.py:29-76 (C47; `$n` beyond the incoming message: F46) -/
def Elem.fill (m : Msg) : Elem → Atom
  | .lit a => a
  | .arg n => m.getD n .bang

/-- `cTabread_onMessage`, HvControlTabread.c:24-46 (messages that choose another table are not modelled) -/
def tabreadStep (t i : Nat) (m : Msg) (s : St) : Res :=
  match i, m with
  | 0, .float q :: _ =>
    if 0 ≤ q then
      match (s.tab t)[⌊q⌋.toNat]? with
      | some v => (s, some (0, [.float v]))
      | none => (s, none)
    else (s, none)
  | _, _ => (s, none)

/-- `cTabwrite_onMessage`, HvControlTabwrite.c:25-53 (messages that choose another table are not modelled) -/
def tabwriteStep (t o i : Nat) (m : Msg) (s : St) : Res :=
  match i, m with
  | 0, .float q :: _ => (s.setTab t ((s.tab t).set ⌊num (s.mem o)⌋.toNat q), none)
  | 1, .float q :: _ => if 0 ≤ q ∧ ⌊q⌋.toNat < (s.tab t).length then (s.set o [.float (⌊q⌋.toNat : ℚ)], none) else (s, none)
  | _, _ => (s, none)

/-- the size of a table: the length rounded up to a multiple of the SIMD width (here by division, in C with a mask), HvTable.c:20-25, 34-37 -/
def roundUp (w n : Nat) : Nat := (n + w - 1) / w * w

/-- `cSystem_onMessage`, HvControlSystem.c:19-50 (without the numbers of channels and the head of a table) -/
def systemStep (c : Ctx) (m : Msg) (s : St) : Res :=
  match m with
  | .sym "samplerate" :: _ => (s, some (0, [.float c.sr]))
  | .sym "currentTime" :: _ => (s, some (0, [.float s.now]))
  | .sym "table" :: .sym n :: .sym "length" :: _ =>
    match c.tabId n with
    | some t => (s, some (0, [.float (s.tab t).length]))
    | none => (s, none)
  | .sym "table" :: .sym n :: .sym "size" :: _ =>
    match c.tabId n with
    | some t => (s, some (0, [.float (roundUp c.simd (s.tab t).length : Nat)]))
    | none => (s, none)
  | _ => (s, none)

/-- insertion by timestamp, `mq_addMessageByTimestamp`, HvMessageQueue.c:62-115 (C05) -/
def insert (p : Pend) (q : List Pend) : List Pend :=
  q.takeWhile (fun x => decide (x.time ≤ p.time)) ++ p :: q.dropWhile (fun x => decide (x.time ≤ p.time))

/-- the messages of one object that are waiting -/
def waiting (o : Nat) (q : List Pend) : List Pend := q.filter fun p => decide (p.obj = o)

/-- `__HV_DELAY_MAX_MESSAGES`, HvControlDelay.h:20 -/
def maxMessages : Nat := 8

/-- `cDelay_onMessage`, HvControlDelay.c:25-83 (C21; `flush` is not modelled).  The object keeps its delay in samples.  When eight
messages are waiting a further one is lost; a debug build stops at an assertion. -/
def delayStep (c : Ctx) (o i : Nat) (m : Msg) (s : St) : Res :=
  match i, m with
  | 0, .sym "clear" :: _ => ({ s with q := s.q.filter fun p => !decide (p.obj = o) }, none)
  | 0, .sym "flush" :: _ => (s, none)
  | 0, m =>
    if (waiting o s.q).length < maxMessages then
      ({ s with q := insert ⟨s.now + ⌊num (s.mem o)⌋.toNat, o, m⟩ s.q }, none)
    else (s, none)
  | 1, .float q :: _ => (s.set o [.float (⌊max 0 q * c.sr / 1000⌋ : ℚ)], none)
  | 2, .float q :: _ => (s.set o [.float (⌊max 0 q⌋ : ℚ)], none)
  | _, _ => (s, none)

/-- what an object of a class does with a message -/
def step (c : Ctx) (k : Cls) (o i : Nat) (m : Msg) (s : St) : Res :=
  match k with
  | .none => (s, none)
  | .var _ => varStep o i m s
  | .ite _ => iteStep o i m s
  | .bin op _ => binStep op o i m s
  | .bink op k => binkStep op k m s
  | .un op => unStep op m s
  | .fn f => fnStep c f m s
  | .pow _ => powStep c o i m s
  | .powk k => powkStep c k m s
  | .switch cs => switchStep cs m s
  | .slice a n => sliceStep a n m s
  | .pack _ => packStep o i m s
  | .msg l => (s, some (0, l.map (Elem.fill m)))
  | .tabread t => tabreadStep t i m s
  | .tabwrite t => tabwriteStep t o i m s
  | .system => systemStep c m s
  | .delay _ => delayStep c o i m s
  | .print => (s, none)
  | .probe k => ({ s with log := s.log ++ [(s.now, k, m)] }, none)

/-- the same as a behaviour -/
def beh (c : Ctx) (k : Cls) (o i : Nat) (m : Msg) : Act St Msg :=
  .get fun s => .set (step c k o i m s).1
    (match (step c k o i m s).2 with
     | none => .done
     | some (l, m) => .send l m .done)

/-- `cCast_onMessage`, HvControlCast.c:19-67 -/
def cast : Cast → Msg → Option Msg
  | .bang, _ => some [.bang]
  | .float, .float q :: _ => some [.float q]
  | .float, _ => none
  | .symbol, .bang :: _ => some [.sym "bang"]
  | .symbol, .float _ :: _ => some [.sym "float"]
  | .symbol, .sym x :: m => some (.sym x :: m)
  | .symbol, [] => none

/-- objects and casts -/
def env (c : Ctx) (cls : Nat → Cls) : Env St Msg where
  beh o i m := beh c (cls o) o i m
  cast := cast

/-- the class of an object -/
def clsOf (l : List Node) (o : Nat) : Cls := (l[o]?.map (·.cls)).getD .none

/-- a list of objects as a patch -/
def mkPatch (l : List Node) (recvs : Nat → List Nat) (prio : Nat → Int) : Patch where
  kind o := (l[o]?.map (·.kind)).getD .inlet
  outs o := (l[o]?.map (·.outs)).getD []
  recvs := recvs
  prio := prio

/-- what an object keeps at the start: `cVar_init_f`, `cIf_init`, `cBinop_init`, `cPack_init`, `cTabwrite_init`, `cDelay_init` -/
def Cls.init (c : Ctx) : Cls → List Atom
  | .var a => [a]
  | .ite k => [.float k]
  | .bin _ k => [.float k]
  | .pow k => [.float k]
  | .pack l => l.map .float
  | .tabwrite _ => [.float 0]
  | .delay ms => [.float (⌊max 0 ms * c.sr / 1000⌋ : ℚ)]
  | _ => []

/-- the state at the start -/
def start (c : Ctx) (l : List Node) (tab : Nat → List ℚ) : St :=
  { now := 0, mem := fun o => (clsOf l o).init c, tab := tab, q := [], log := [] }

/-! ## time -/

/-- a running program: the objects, and the calls that a message from an outlet of an object or to a name makes -/
structure Mach where
  sys : Sys St Msg
  call : Control.Src Msg → List (Dest × Msg)

/-- the patch itself -/
def source (c : Ctx) (l : List Node) (recvs : Nat → List Nat) (prio : Nat → Int) (order : Nat → List Nat) : Mach where
  sys := (mkPatch l recvs prio).means order (env c (clsOf l))
  call x := x.calls (mkPatch l recvs prio) order

/-- `M` is generated code of the patch: the result of the compiler of C45, whatever the order in which [trigger]s are reduced and
names are handled -/
def Compiled (c : Ctx) (l : List Node) (recvs : Nat → List Nat) (prio : Nat → Int) (M : Mach) : Prop :=
  ∃ os names f q ir, (mkPatch l recvs prio).compile l.length os names f = some (q, ir) ∧
    (∀ o, o ∈ os ↔ o < l.length ∧ ∃ cs, (mkPatch l recvs prio).kind o = .seq cs) ∧ (∀ nm, recvs nm ≠ [] → nm ∈ names) ∧
    M = ⟨ir.code (env c (clsOf l)), fun x => x.code ir q.recvs⟩

/-- what happens to an abstraction: a message at an inlet at some time, or the first message of the queue is due -/
inductive Ev
  | ext (t i : Nat) (m : Msg)
  | tick

/-- one event; `drv i` is an object (of the surrounding patch) whose outlet is connected to inlet `i` of the abstraction.  A
message from outside arrives when nothing in the queue is due earlier (at the same time either may come first); the message of a
`__delay` object is removed from the queue and sent from its outlet (Heavy_NAME.cpp:210-222, ControlDelay.py:61-77). -/
inductive Happens (M : Mach) (drv : Nat → Nat) : Ev → St → St → Prop
  | ext {t i m s s' tr} : s.now ≤ t → (∀ p ∈ s.q.head?, t ≤ p.time) →
      Big M.sys (.all (M.call (.outlet (drv i) 0 m))) { s with now := t } s' tr → Happens M drv (.ext t i m) s s'
  | tick {p q s s' tr} : s.q = p :: q → Big M.sys (.all (M.call (.outlet p.obj 0 p.msg))) { s with now := p.time, q := q } s' tr →
      Happens M drv .tick s s'

/-- a history -/
inductive Hist (M : Mach) (drv : Nat → Nat) : List Ev → St → St → Prop
  | nil {s} : Hist M drv [] s s
  | cons {e es s s1 s2} : Happens M drv e s s1 → Hist M drv es s1 s2 → Hist M drv (e :: es) s s2

/-- the message `bang` of `__hv_init` (name 0) at the start, HeavyContext's constructor: ir2c.py (C35) -/
def Booted (M : Mach) (s s' : St) : Prop := ∃ tr, Big M.sys (.all (M.call (.name 0 [.bang]))) s s' tr

/-- from the start -/
def Runs (M : Mach) (drv : Nat → Nat) (st : St) (es : List Ev) (s : St) : Prop := ∃ s0, Booted M st s0 ∧ Hist M drv es s0 s

/-- an event is possible now: nothing in the queue is due earlier; something is in the queue -/
def Can (s : St) : Ev → Prop
  | .ext t _ _ => s.now ≤ t ∧ ∀ p ∈ s.q.head?, t ≤ p.time
  | .tick => s.q ≠ []

/-! ## running -/

/-- messages that are passed on at once to all connections, after a cast -/
def castTo (k : Cast) (ds : List Dest) (m : Msg) : List (Dest × Msg) :=
  match cast k m with
  | some m' => ds.map (·, m')
  | none => []

def castNode (k : Cast) (ds : List Dest) (m : Msg) : Control.Node St Msg :=
  match cast k m with
  | some m' => .fwd false (ds.map (·, m'))
  | none => .fwd false []

end Verif.Lib
