import Verif.LightPipe
/-!
Model of `hvcc/generators/ir2c/static/HvLightPipe.c` on a machine with store buffers (x86-TSO: Owens, Sarkar, Sewell).

Every store of a thread goes into the thread's own buffer, from where it reaches the memory at some later time, in the order of
the stores; a thread reads the memory, except for a location it has a store to in its own buffer.  The producer only reads
`readHead` (which it never writes) and its private `writeHead` and `remainingBytes`; the consumer only writes `readHead`.
`hv_sfence` keeps stores in their order (HvLightPipe.c:19-39), which on this machine they are anyway.

Simplifications: as in `Verif/LightPipe.lean`, except the first.  Loads are made in program order, as on x86: on ARM they are not
(there is no load barrier in the code).
-/
namespace Verif.LightPipe

/-- a store to the buffer of the pipe -/
inductive Store where
  | word (a v : Nat)
  | byte (a : Nat) (b : Byte)
  deriving DecidableEq, Repr

/-- the store reaches the memory -/
def Store.apply (mem : Nat → Byte) : Store → Nat → Byte
  | .word a v => write32 mem a v
  | .byte a b => write8 mem a b

/-- is the store inside a buffer of `len` bytes? -/
def Store.inside (len : Nat) : Store → Bool
  | .word a _ => a + 4 ≤ len
  | .byte a _ => a + 1 ≤ len

/-- `mem`, `len`, `seen`: the buffer of the pipe and `readHead` as they are in memory.  `pbuf`: the stores of the producer that have not
reached the memory, oldest first; `cbuf`: those of the consumer, all to `readHead`.  `sent`: payloads whose `hLp_produce` has
returned, `got`: payloads the consumer has read. -/
structure Tso where
  mem : Nat → Byte
  len : Nat
  wr : Nat
  rem : Nat
  p : PPc
  pbuf : List Store
  seen : Nat
  cbuf : List Nat
  c : CPc
  sent : List Msg
  got : List Msg

/-- `hLp_init`, HvLightPipe.c:46-59, before the second thread starts -/
def initTso (junk : Nat → Byte) (numBytes : Nat) : Tso :=
  { mem := write32 junk 0 STOP, len := numBytes, wr := 0, rem := numBytes, p := .idle, pbuf := [], seen := 0, cbuf := [], c := .idle,
    sent := [], got := [] }

/-- `q->readHead` as the consumer reads it: its own youngest store, or the memory -/
def Tso.rd (t : Tso) : Nat := t.cbuf.getLastD t.seen

/-- the producer executes a store -/
def Tso.store (t : Tso) (x : Store) : Except Fault Tso :=
  if x.inside t.len then .ok { t with pbuf := t.pbuf ++ [x] } else .error .outOfBounds

/-- the consumer loads a word -/
def Tso.load32 (t : Tso) (a : Nat) : Except Fault Nat := if a + 4 ≤ t.len then .ok (read32 t.mem a) else .error .outOfBounds

/-- the consumer loads a byte -/
def Tso.load8 (t : Tso) (a : Nat) : Except Fault Byte := if a + 1 ≤ t.len then .ok (t.mem a) else .error .outOfBounds

/-- `hLp_getWriteBuffer`, HvLightPipe.c:74-104, up to its first store; `readHead` is loaded from memory -/
def Tso.beginSend (t : Tso) (m : Msg) : Tso :=
  match decision t.len t.wr t.rem t.seen m.length with
  | .full => t
  | .inPlace => { t with p := .fill m 0 }
  | .loop => { t with wr := 0, rem := t.len, p := .loopStop m t.wr }

/-- one step of the producer, HvLightPipe.c:95-117 -/
def Tso.prodStep (t : Tso) : Except Fault Tso :=
  match t.p with
  | .idle => .ok t
  | .loopStop m old => do
      let t ← t.store (.word 0 STOP)
      .ok { t with p := .loopLoop m old }
  | .loopLoop m old => do
      let t ← t.store (.word old LOOP)
      .ok { t with p := .fill m 0 }
  | .fill m k =>
      match m[k]? with
      | some b => do
          let t ← t.store (.byte (t.wr + 4 + k) b)
          .ok { t with p := .fill m (k + 1) }
      | none => .ok { t with p := .prodStop m }
  | .prodStop m =>
      if t.rem ≥ m.length + 8 then do
        let old := t.wr
        let t := { t with rem := t.rem - (4 + m.length), wr := t.wr + (4 + m.length) }
        let t ← t.store (.word t.wr STOP)
        .ok { t with p := .prodLen m old }
      else .error .assertion
  | .prodLen m old => do
      let t ← t.store (.word old m.length)
      .ok { t with p := .idle, sent := t.sent ++ [m] }

/-- one step of the consumer, HvLightPipe.c:65-72, 120-129 -/
def Tso.consStep (t : Tso) : Except Fault Tso :=
  match t.c with
  | .idle => do
      let x ← t.load32 t.rd
      if x = LOOP then .ok { t with c := .sawLoop }
      else if x = STOP then .ok t
      else .ok { t with c := .gotData }
  | .sawLoop => .ok { t with cbuf := t.cbuf ++ [0], c := .reread }
  | .reread => do
      let x ← t.load32 t.rd
      if x = STOP then .ok { t with c := .idle } else .ok { t with c := .gotData }
  | .gotData => do
      let n ← t.load32 t.rd
      .ok { t with c := .reading n 0 [] }
  | .reading n k acc =>
      if k < n then do
        let b ← t.load8 (t.rd + 4 + k)
        .ok { t with c := .reading n (k + 1) (acc ++ [b]) }
      else .ok { t with c := .consume, got := t.got ++ [acc] }
  | .consume => do
      let n ← t.load32 t.rd
      if n = STOP then .error .assertion
      else .ok { t with cbuf := t.cbuf ++ [t.rd + (4 + n)], c := .idle }

/-- the oldest store of the producer reaches the memory -/
def Tso.pflush (t : Tso) : Tso :=
  match t.pbuf with
  | [] => t
  | x :: xs => { t with mem := x.apply t.mem, pbuf := xs }

/-- the oldest store of the consumer reaches the memory -/
def Tso.cflush (t : Tso) : Tso :=
  match t.cbuf with
  | [] => t
  | x :: xs => { t with seen := x, cbuf := xs }

/-- what the two threads and the memory may do -/
inductive TAct where
  | send (m : Msg)
  | prod
  | cons
  | pflush
  | cflush
  deriving DecidableEq, Repr

/-- one action -/
def Tso.step (t : Tso) : TAct → Except Fault Tso
  | .send m => if t.p = .idle then .ok (t.beginSend m) else .ok t
  | .prod => t.prodStep
  | .cons => t.consStep
  | .pflush => .ok t.pflush
  | .cflush => .ok t.cflush

/-- Execution of a schedule. -/
def Tso.run (t : Tso) : List TAct → Except Fault Tso
  | [] => .ok t
  | a :: as => match t.step a with
    | .ok t' => t'.run as
    | .error e => .error e

end Verif.LightPipe
