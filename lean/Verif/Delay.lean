import Verif.MessageQueue
import Verif.Message
/-!
Model of `hvcc/generators/ir2c/static/HvControlDelay.c` (`[__delay]`, the object behind `[del]`, `[pipe]`, `[metro]`)
and of the `sendMessage` function generated for it by `hvcc/generators/ir2c/ControlDelay.py:61-77`, inside a system whose
other objects schedule and cancel messages of their own.

The queue is the sequence of pending messages, with the insertion and removal functions that `mq_addMessageByTimestamp`
and `mq_removeMessage` are proved to implement (C05).  A message's identity is its address, which the pool reuses after
the message is freed; `tag` is the content of the memory at an address, reduced to one number.

Simplifications: what the rest of the patch does is an arbitrary sequence of events.  While a flushed message is being sent, the
rest of the patch may schedule and cancel its own messages and send a message back to this object, but a nested
`clear` or `flush` of this object is not represented.
-/
namespace Verif.Delay
open Verif.MQ (Item absInsert absRemove)
open Verif.Msg (Err)

/-- `__HV_DELAY_MAX_MESSAGES`, HvControlDelay.h:20 -/
def maxMessages : Nat := 8

/-- one message sent by the object: its content, its timestamp, and whether a flush sent it -/
structure Emit where
  uid : Nat
  ts : Nat
  flushed : Bool
  deriving DecidableEq, Repr

/-- the system: message queue, memory, the object, and the message now being dispatched.  The last four fields are ghosts:
the number of messages accepted, those messages with their due times, everything the object has sent, and what was cleared. -/
structure W where
  q : List Item
  tag : Nat → Nat
  delay : Nat
  slots : List (Option Nat)
  exec : Option Nat
  n : Nat
  acc : List (Nat × Nat)
  log : List Emit
  gone : List Nat

/-- `cDelay_init`, HvControlDelay.c:19-23 -/
def init (delay : Nat) : W :=
  { q := [], tag := fun _ => 0, delay := delay, slots := List.replicate maxMessages none, exec := none, n := 0,
    acc := [], log := [], gone := [] }

/-- `cDelay_clearExecutingMessage`, HvControlDelay.c:85-92 -/
def clearExecuting (p : Nat) : List (Option Nat) → List (Option Nat)
  | [] => []
  | s :: ss => if s = some p then none :: ss else s :: clearExecuting p ss

/-- `msg_setTimestamp` on the message at address `p`, HvMessage.h:73-75 -/
def setTs (p ts : Nat) (q : List Item) : List Item := q.map fun x => if x.id = p then { x with ts := ts } else x

/-- the first `NULL` slot takes the pointer, HvControlDelay.c:55-60; `none`: there is no such slot -/
def fillSlot (p : Nat) : List (Option Nat) → Option (List (Option Nat))
  | [] => none
  | none :: ss => some (some p :: ss)
  | some x :: ss => (fillSlot p ss).map (some x :: ·)

/-- 32-bit addition of timestamps -/
def add32 (a b : Nat) : Nat := (a + b) % 2 ^ 32

/-- the address the pool gives to a new message: any address that is not in use (C11).  `p` stands for the pool's choice; it
is taken if it is not in use. -/
def fresh (p : Nat) (q : List Item) : Nat := if p ∈ q.map (·.id) then (q.map (·.id)).sum + 1 else p

/-- a message to be delayed, HvControlDelay.c:52-65.  `p0` is the address the pool gives to the copy.  `self` is the address
of the incoming message when that is itself in the queue (the message now being dispatched, connected directly to this
object): its timestamp is changed while the copy is inserted, and restored afterwards.  -/
def delayMsg (D : Nat) (w : W) (ts : Nat) (self : Option Nat) (p0 : Nat) : Except Err W :=
  let p := fresh p0 w.q
  match fillSlot p w.slots with
  | none => .error .assertFail
  | some slots =>
    let due := add32 ts w.delay
    let x : Item := ⟨p, due, 0, D⟩
    let q := match self with
      | none => absInsert x w.q
      | some m => setTs m ts (absInsert x (setTs m due w.q))
    .ok { w with q := q, tag := fun a => if a = p then w.n else w.tag a, slots := slots, n := w.n + 1,
                 acc := w.acc ++ [(w.n, due)] }

/-- actions of the rest of the patch on the queue -/
inductive Other
  | sched (ts send p u : Nat)   -- `hv_scheduleMessageForObject`, HvHeavy.cpp:239-242
  | cancel (p send : Nat)       -- `hv_cancelMessage`, HvHeavy.cpp:244-247
  deriving DecidableEq, Repr

def other (w : W) : Other → W
  | .sched ts send p0 u =>
    let p := fresh p0 w.q
    { w with q := absInsert ⟨p, ts, 0, send⟩ w.q, tag := fun a => if a = p then u else w.tag a }
  | .cancel p send => { w with q := (absRemove p (some send) w.q).2 }

/-- what the rest of the patch does while a flushed message is being sent -/
inductive DAct
  | other (a : Other)
  | back (ts p : Nat)           -- a new message is sent to this object's left inlet
  deriving DecidableEq, Repr

def dacts (D : Nat) (w : W) : List DAct → Except Err W
  | [] => .ok w
  | .other a :: as => dacts D (other w a) as
  | .back ts p :: as => do
    let w ← delayMsg D w ts none p
    dacts D w as

/-- the object's `sendMessage`, ControlDelay.py:61-77: the slot is cleared, the message goes out -/
def send (w : W) (p ts : Nat) (flushed : Bool) : W :=
  { w with slots := clearExecuting p w.slots, log := w.log ++ [⟨w.tag p, ts, flushed⟩] }

/-- one iteration of the loop of `flush`, HvControlDelay.c:31-40 -/
def flushAt (D ts : Nat) (during : Nat → List DAct) (w : W) (i : Nat) : Except Err W :=
  match w.slots[i]?.join with
  | none => .ok w
  | some p => do
    let w := send { w with q := setTs p ts w.q } p ts true
    let w ← dacts D w (during i)
    .ok { w with q := (absRemove p (some D) w.q).2 }

def flushLoop (D ts : Nat) (during : Nat → List DAct) (w : W) : List Nat → Except Err W
  | [] => .ok w
  | i :: is => do
    let w ← flushAt D ts during w i
    flushLoop D ts during w is

/-- `flush`, HvControlDelay.c:29-41 -/
def flush (D ts : Nat) (during : Nat → List DAct) (w : W) : Except Err W := do
  let w ← flushLoop D ts during w (List.range maxMessages)
  .ok { w with slots := List.replicate maxMessages none }

/-- one iteration of the loop of `clear`, HvControlDelay.c:44-49 -/
def clearAt (D : Nat) (w : W) (i : Nat) : W :=
  match w.slots[i]?.join with
  | none => w
  | some p => { w with q := (absRemove p (some D) w.q).2,
                       gone := w.gone ++ (if (absRemove p (some D) w.q).1 then [w.tag p] else []) }

/-- `clear`, HvControlDelay.c:42-50 -/
def clear (D : Nat) (w : W) : W :=
  let w := (List.range maxMessages).foldl (clearAt D) w
  { w with slots := List.replicate maxMessages none }

/-- everything that can happen -/
inductive Ev
  | msg (ts : Nat) (direct : Bool) (p : Nat)     -- a message on the left inlet; `direct`: it is the message being dispatched
  | clear
  | flush (ts : Nat) (during : Nat → List DAct)
  | setDelay (d : Nat)                           -- a number on one of the other inlets, HvControlDelay.c:68-82
  | other (a : Other)
  | start                                        -- the loop of process() takes the first message and calls its function
  | finish                                       -- and removes it when the function returns (Heavy_NAME.cpp:216-220)

def step (D : Nat) (w : W) : Ev → Except Err W
  | .msg ts direct p => delayMsg D w ts (if direct then w.exec else none) p
  | .clear => .ok (clear D w)
  | .flush ts during => flush D ts during w
  | .setDelay d => .ok { w with delay := d }
  | .other a => .ok (other w a)
  | .start => match w.q.head? with
    | none => .ok w
    | some x =>
      let w := { w with exec := some x.id }
      .ok (if x.send = D then send w x.id x.ts false else w)
  | .finish => .ok { w with q := w.q.tail, exec := none }

def run (D : Nat) (w : W) : List Ev → Except Err W
  | [] => .ok w
  | e :: es => do
    let w ← step D w e
    run D w es

end Verif.Delay
