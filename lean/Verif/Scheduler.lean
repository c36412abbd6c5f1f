import Verif.MessageQueue
/-!
Model of the scheduling part of `process()` in
`hvcc/generators/ir2c/templates/Heavy_NAME.cpp` and of `sendMessageToReceiver` in
`hvcc/generators/ir2c/static/HeavyContext.cpp`, on top of the pointer-level queue of
`MessageQueue.lean`.

Simplifications:
* the message handlers (`cXxx_sendMessage` functions, everything the patch does with a message) are an
  arbitrary function `H` from a handler state `σ`, the next message identity and the message being
  dispatched to a new state and a list of scheduling actions;
* message identities are consecutive numbers instead of addresses, so that a message can be named
  over its whole life (the pool may reuse the address after the message is freed);
* the payload of a message is not represented (see `Message.lean`); the host-to-context pipe is a FIFO
  list (see `LightPipe.lean`);
* signal processing of a block has no effect on the schedule.
-/
namespace Verif.Sched
open MQ (Item Q)

/-- Scheduling actions of a handler: `hv_scheduleMessageForObject` (HvHeavy.cpp:239-242,
HeavyContext.cpp:143-148) and `hv_cancelMessage` (HvHeavy.cpp:244-247, HeavyContext.cpp:139-141). -/
inductive Act
  | sched (ts inlet send : Nat)
  | cancel (m : Nat) (send : Option Nat)
  deriving DecidableEq, Repr

/-- The patch: what the handlers do. -/
abbrev Handler (σ : Type) := σ → Nat → Item → σ × List Act

/-- one dispatch of a message: the end time of the block in which it happened, and the message -/
structure Disp where
  blockEnd : Nat
  item : Item
  deriving DecidableEq, Repr

inductive Err
  | fault     -- a NULL pointer was followed
  | diverge   -- the loop did not end within the given number of steps
  | undefined -- a conversion from double to uint32_t out of range
  deriving DecidableEq, Repr

/-- The part of the context that matters for scheduling. `inq` is the content of `inQueue`
(receiver hash, timestamp), `clock` is `blockStartTimestamp`. -/
structure Sys (σ : Type) where
  q : Q
  clock : Nat
  nid : Nat
  inq : List (Nat × Nat)
  hst : σ
  /-- ghost: all dispatches so far, oldest first -/
  log : List Disp
  /-- ghost: all messages ever scheduled, oldest first -/
  added : List Item
  /-- ghost: messages cancelled -/
  cancelled : List Item

variable {σ : Type}

/-- inserting a message: `mq_addMessageByTimestamp` -/
def sched (s : Sys σ) (ts inlet send : Nat) : Except Err (Sys σ) :=
  let x : Item := ⟨s.nid, ts, inlet, send⟩
  match MQ.addByTimestamp s.q x with
  | none => .error .fault
  | some q => .ok { s with q := q, nid := s.nid + 1, added := s.added ++ [x] }

/-- cancelling a message: `mq_removeMessage` -/
def cancel (s : Sys σ) (m : Nat) (send : Option Nat) : Except Err (Sys σ) :=
  match MQ.removeMessage s.q m send with
  | none => .error .fault
  | some (b, q) => .ok { s with q := q, cancelled := s.cancelled ++
      (if b then ((MQ.toList s.q).getD []).filter (fun x => x.id = m) else []) }

def execActs (s : Sys σ) : List Act → Except Err (Sys σ)
  | [] => .ok s
  | .sched ts inlet send :: as => do execActs (← sched s ts inlet send) as
  | .cancel m send :: as => do execActs (← cancel s m send) as

/-- the `while (mq_hasMessageBefore(&mq, nextBlock))` loop, Heavy_NAME.cpp:216-220 and 257-261 -/
def dispatch (H : Handler σ) (e : Nat) : Nat → Sys σ → Except Err (Sys σ)
  | 0, _ => .error .diverge
  | fuel + 1, s =>
    match MQ.hasMessageBefore s.q e with
    | none => .error .fault
    | some false => .ok s
    | some true =>
      match MQ.peek s.q with
      | none => .error .fault
      | some x => do
        let (hst, acts) := H s.hst s.nid x
        let s ← execActs { s with hst := hst } acts
        dispatch H e fuel { s with q := MQ.pop s.q, log := s.log ++ [⟨e, x⟩] }

/-- 32-bit unsigned addition -/
def add32 (a b : Nat) : Nat := (a + b) % 2^32

/-- the loop over SIMD blocks, Heavy_NAME.cpp:211-250: `k` iterations starting at `nextBlock = e`;
returns the final `nextBlock` -/
def blocks (H : Handler σ) (fuel N : Nat) : Nat → Nat → Sys σ → Except Err (Nat × Sys σ)
  | 0, e, s => .ok (e, s)
  | k + 1, e, s => do
    let e := add32 e N
    let s ← dispatch H e fuel s
    blocks H fuel N k e s

/-- `scheduleMessageForReceiver`, Heavy_NAME.cpp:95-107: one queue entry per receiver object of that
name (`recv h` lists them) -/
def schedReceivers (s : Sys σ) (ts : Nat) : List Nat → Except Err (Sys σ)
  | [] => .ok s
  | r :: rs => do schedReceivers (← sched s ts 0 r) ts rs

/-- draining `inQueue`, Heavy_NAME.cpp:179-185 -/
def drain (recv : Nat → List Nat) (s : Sys σ) : List (Nat × Nat) → Except Err (Sys σ)
  | [] => .ok s
  | (h, ts) :: ms => do drain recv (← schedReceivers s ts (recv h)) ms

/-- `n & ~HV_N_SIMD_MASK` on 32-bit integers, Heavy_NAME.cpp:190 -/
def roundDown (n : BitVec 32) (N : Nat) : BitVec 32 := n &&& ~~~(BitVec.ofNat 32 (N - 1))

/-- hash of `__hv_bang~` -/
def bangHash : Nat := 0xDD21C0EB

/-- `process`, Heavy_NAME.cpp:178-254 (patch with signal processing): returns the number of frames.
`during` are the host messages (hash, timestamp) that another thread puts into `inQueue` while the
call is in progress, after it has been drained.  The number of iterations of the loop
`for (n = 0; n < n4; n += HV_N_SIMD)` is `n4 / HV_N_SIMD` since `n4` is a multiple; it is 0 when `n4`
is negative. -/
def process (H : Handler σ) (recv : Nat → List Nat) (fuel N : Nat) (n : BitVec 32)
    (during : List (Nat × Nat)) (s : Sys σ) : Except Err (Int × Sys σ) := do
  let s ← drain recv { s with inq := [] } s.inq
  let s := { s with inq := (bangHash, s.clock) :: during }
  let n4 := roundDown n N
  let iters := if n4.toInt < 0 then 0 else n4.toNat / N
  let (e, s) ← blocks H fuel N iters s.clock s
  .ok (n4.toInt, { s with clock := e })

/-- `process` of a control-only patch, Heavy_NAME.cpp:178-187 and 255-265 -/
def processControl (H : Handler σ) (recv : Nat → List Nat) (fuel : Nat) (n : BitVec 32)
    (during : List (Nat × Nat)) (s : Sys σ) : Except Err (Int × Sys σ) := do
  let s ← drain recv { s with inq := [] } s.inq
  let s := { s with inq := (bangHash, s.clock) :: during }
  let e := add32 s.clock n.toNat
  let s ← dispatch H e fuel s
  .ok (n.toInt, { s with clock := e })

/-- timestamp computed by `sendMessageToReceiver`, HeavyContext.cpp:118-119, in exact arithmetic (the
code computes in `double`); the conversion to `hv_uint32_t` truncates and is only defined when the value
fits, which is `none` here. -/
def sendTimestamp (clock : Nat) (delayMs sampleRate : Rat) : Option Nat :=
  let samples := (max 0 delayMs * (sampleRate / 1000)).floor
  if samples < 0 ∨ samples ≥ 2^32 then none else some (add32 clock samples.toNat)

/-- calls of the host on a context -/
inductive Call
  | send (hash : Nat) (delayMs sampleRate : Rat)                 -- `sendMessageToReceiver`
  | proc (n : BitVec 32) (during : List (Nat × Nat))             -- `process`

/-- one host call; `sendMessageToReceiver` appends to `inQueue` (HeavyContext.cpp:114-137; the case of a
full `inQueue` is not represented here), and returns 0. -/
def call (H : Handler σ) (recv : Nat → List Nat) (fuel N : Nat) (s : Sys σ) : Call → Except Err (Int × Sys σ)
  | .send h d sr => match sendTimestamp s.clock d sr with
    | none => .error .undefined
    | some ts => .ok (0, { s with inq := s.inq ++ [(h, ts)] })
  | .proc n during => process H recv fuel N n during s

/-- a sequence of host calls, with the returned values -/
def calls (H : Handler σ) (recv : Nat → List Nat) (fuel N : Nat) (s : Sys σ) : List Call → Except Err (List Int × Sys σ)
  | [] => .ok ([], s)
  | c :: cs => do
    let (r, s) ← call H recv fuel N s c
    let (rs, s) ← calls H recv fuel N s cs
    .ok (r :: rs, s)

/-- a context after construction -/
def initSys (h : MQ.Heap) (st : σ) : Sys σ :=
  { q := MQ.init h, clock := 0, nid := 0, inq := [], hst := st, log := [], added := [], cancelled := [] }

end Verif.Sched
