/-
Model of `hvcc/generators/ir2c/static/HvLightPipe.c` (single producer / single consumer pipe).

The pipe is modelled at the level of individual memory accesses: every 32-bit word access, every
payload byte access and every access to the shared `readHead` pointer is one atomic step, and the
steps of the producer and of the consumer may be interleaved arbitrarily (`run` executes any
schedule).  Pointers into `buffer` are modelled by byte offsets (`Nat`).

Simplifications:
* memory is sequentially consistent (the code relies on `hv_sfence` plus the host's memory model);
* 32-bit words are accessed atomically, little endian, at any offset (as on x86/ARM64);
* `writeHead` and `remainingBytes` are private to the producer, so updating them is merged with the
  neighbouring memory access;
* the producer always passes the same size to `hLp_getWriteBuffer` and `hLp_produce`
  (as `HeavyContext.cpp:80-90,137-147` does).
-/
namespace Verif.LightPipe

abbrev Byte := UInt8
abbrev Msg := List Byte

/-- `HLP_STOP`, HvLightPipe.c:41 -/
def STOP : Nat := 0
/-- `HLP_LOOP`, HvLightPipe.c:42 -/
def LOOP : Nat := 0xFFFFFFFF

/-- `HLP_GET_UINT32_AT_BUFFER`, HvLightPipe.c:44 -/
def read32 (mem : Nat → Byte) (a : Nat) : Nat :=
  (mem a).toNat + 256 * (mem (a+1)).toNat + 65536 * (mem (a+2)).toNat
    + 16777216 * (mem (a+3)).toNat

/-- a single byte store -/
def write8 (mem : Nat → Byte) (a : Nat) (b : Byte) : Nat → Byte :=
  fun i => if i = a then b else mem i

/-- `HLP_SET_UINT32_AT_BUFFER`, HvLightPipe.c:43 -/
def write32 (mem : Nat → Byte) (a : Nat) (v : Nat) : Nat → Byte :=
  fun i => if i = a then UInt8.ofNat (v % 256)
    else if i = a + 1 then UInt8.ofNat (v / 256 % 256)
    else if i = a + 2 then UInt8.ofNat (v / 65536 % 256)
    else if i = a + 3 then UInt8.ofNat (v / 16777216 % 256)
    else mem i

/-- `struct HvLightPipe`, HvLightPipe.h:30-36 (pointers are offsets from `buffer`). -/
structure Pipe where
  mem : Nat → Byte
  len : Nat
  wr  : Nat
  rd  : Nat
  rem : Nat

/-- `hLp_init`, HvLightPipe.c:46-59, for `numBytes > 0`; the memory obtained from `malloc` is
arbitrary (`junk`). -/
def init (junk : Nat → Byte) (numBytes : Nat) : Pipe :=
  { mem := write32 junk 0 STOP, len := numBytes, wr := 0, rd := 0, rem := numBytes }

/-- `hLp_reset`, HvLightPipe.c:131-136 -/
def reset (q : Pipe) : Pipe :=
  { q with mem := fun i => if i < q.len then 0 else q.mem i, wr := 0, rd := 0, rem := q.len }

/-- What `hLp_getWriteBuffer` decides (HvLightPipe.c:74-104) given the value of `readHead` that it
loaded. `full` models `return NULL`. -/
inductive Decision where
  | full
  | inPlace            -- line 86: `return oldWriteHead + 4`
  | loop               -- lines 93-98: wrap to the start of the buffer
  deriving DecidableEq, Repr

/-- The decision logic of `hLp_getWriteBuffer`, HvLightPipe.c:74-104. `total` is a `hv_uint32_t`
and therefore reduced modulo 2^32 (line 77). -/
def decision (len wr rem readHead n : Nat) : Decision :=
  let total := (n + 8) % 2^32
  if total ≤ rem then
    let newWr := wr + 4 + n
    if wr < readHead ∧ newWr ≥ readHead then .full else .inPlace
  else if total ≤ len then
    if wr < readHead ∨ total > readHead then .full else .loop
  else .full

/-- Program counter of the producer thread (the message being sent is carried along). -/
inductive PPc where
  | idle
  | loopStop (m : Msg) (old : Nat)     -- about to run line 95
  | loopLoop (m : Msg) (old : Nat)     -- about to run line 97
  | fill (m : Msg) (k : Nat)           -- caller is writing payload byte `k`
  | prodStop (m : Msg)                 -- about to run lines 107-111 of `hLp_produce`
  | prodLen (m : Msg) (old : Nat)      -- about to run line 117
  deriving DecidableEq, Repr

/-- Program counter of the consumer thread
(`while (hLp_hasData(q)) { buf = hLp_getReadBuffer(q,&n); …read n bytes…; hLp_consume(q); }`). -/
inductive CPc where
  | idle                               -- about to run `hLp_hasData` line 66
  | sawLoop                            -- about to run line 68
  | reread                             -- about to run line 69
  | gotData                            -- `hasData` returned non-zero: about to run line 121
  | reading (n k : Nat) (acc : Msg)    -- reading payload byte `k` of `n`
  | consume                            -- about to run lines 127-128
  deriving DecidableEq, Repr

/-- Possible failures of a step. -/
inductive Fault where
  | outOfBounds
  | assertion
  deriving DecidableEq, Repr

/-- System state: the pipe, both threads, and two history variables:
`sent` = payloads whose `hLp_produce` completed, `got` = payloads the consumer finished reading. -/
structure St where
  q : Pipe
  p : PPc
  c : CPc
  sent : List Msg
  got : List Msg

def initSt (junk : Nat → Byte) (numBytes : Nat) : St :=
  { q := init junk numBytes, p := .idle, c := .idle, sent := [], got := [] }

/-- Scheduler actions: the producer begins to send a message, the producer takes its next step, the
consumer takes its next step. Actions that are not enabled leave the state unchanged. -/
inductive Act where
  | send (m : Msg)
  | prod
  | cons
  deriving DecidableEq, Repr

/-- checked 32-bit store -/
def st32 (q : Pipe) (a v : Nat) : Except Fault Pipe :=
  if a + 4 ≤ q.len then .ok { q with mem := write32 q.mem a v } else .error .outOfBounds

/-- checked byte store -/
def st8 (q : Pipe) (a : Nat) (b : Byte) : Except Fault Pipe :=
  if a + 1 ≤ q.len then .ok { q with mem := write8 q.mem a b } else .error .outOfBounds

/-- checked 32-bit load -/
def ld32 (q : Pipe) (a : Nat) : Except Fault Nat :=
  if a + 4 ≤ q.len then .ok (read32 q.mem a) else .error .outOfBounds

/-- checked byte load -/
def ld8 (q : Pipe) (a : Nat) : Except Fault Byte :=
  if a + 1 ≤ q.len then .ok (q.mem a) else .error .outOfBounds

/-- The producer calls `hLp_getWriteBuffer(q, m.length)`: loads `readHead` (line 75) and decides.
A NULL result makes the producer give up this message (it stays idle). -/
def beginSend (s : St) (m : Msg) : St :=
  match decision s.q.len s.q.wr s.q.rem s.q.rd m.length with
  | .full => s
  | .inPlace => { s with p := .fill m 0 }
  | .loop =>
      -- lines 93-94
      { s with q := { s.q with wr := 0, rem := s.q.len }, p := .loopStop m s.q.wr }

/-- One producer step. -/
def prodStep (s : St) : Except Fault St :=
  match s.p with
  | .idle => .ok s
  | .loopStop m old => do          -- HvLightPipe.c:95
      let q ← st32 s.q 0 STOP
      .ok { s with q := q, p := .loopLoop m old }
  | .loopLoop m old => do          -- HvLightPipe.c:97-98
      let q ← st32 s.q old LOOP
      .ok { s with q := q, p := .fill m 0 }
  | .fill m k =>                   -- the caller's writes into the returned buffer
      match m[k]? with
      | some b => do
          let q ← st8 s.q (s.q.wr + 4 + k) b
          .ok { s with q := q, p := .fill m (k+1) }
      | none => .ok { s with p := .prodStop m }
  | .prodStop m =>                 -- HvLightPipe.c:107-111
      if s.q.rem ≥ m.length + 8 then do
        let old := s.q.wr
        let q := { s.q with rem := s.q.rem - (4 + m.length), wr := s.q.wr + (4 + m.length) }
        let q ← st32 q q.wr STOP
        .ok { s with q := q, p := .prodLen m old }
      else .error .assertion
  | .prodLen m old => do           -- HvLightPipe.c:117
      let q ← st32 s.q old m.length
      .ok { s with q := q, p := .idle, sent := s.sent ++ [m] }

/-- One consumer step. -/
def consStep (s : St) : Except Fault St :=
  match s.c with
  | .idle => do                    -- HvLightPipe.c:66-67
      let x ← ld32 s.q s.q.rd
      if x = LOOP then .ok { s with c := .sawLoop }
      else if x = STOP then .ok s
      else .ok { s with c := .gotData }
  | .sawLoop =>                    -- HvLightPipe.c:68
      .ok { s with q := { s.q with rd := 0 }, c := .reread }
  | .reread => do                  -- HvLightPipe.c:69-71
      let x ← ld32 s.q s.q.rd
      if x = STOP then .ok { s with c := .idle } else .ok { s with c := .gotData }
  | .gotData => do                 -- HvLightPipe.c:121-123
      let n ← ld32 s.q s.q.rd
      .ok { s with c := .reading n 0 [] }
  | .reading n k acc =>            -- the caller's reads from the returned buffer
      if k < n then do
        let b ← ld8 s.q (s.q.rd + 4 + k)
        .ok { s with c := .reading n (k+1) (acc ++ [b]) }
      else .ok { s with c := .consume, got := s.got ++ [acc] }
  | .consume => do                 -- HvLightPipe.c:127-128
      let n ← ld32 s.q s.q.rd
      if n = STOP then .error .assertion
      else .ok { s with q := { s.q with rd := s.q.rd + (4 + n) }, c := .idle }

/-- One scheduled action. -/
def step (s : St) : Act → Except Fault St
  | .send m => if s.p = .idle then .ok (beginSend s m) else .ok s
  | .prod => prodStep s
  | .cons => consStep s

/-- Execution of a schedule. -/
def run (s : St) : List Act → Except Fault St
  | [] => .ok s
  | a :: as => match step s a with
    | .ok s' => run s' as
    | .error e => .error e

end Verif.LightPipe
