import Mathlib.Data.Rat.Floor
import Mathlib.Algebra.Order.Ring.Rat
import Verif.Table
/-!
The delay lines: the abstractions `delwrite~`, `vd~` (and `delread4~`, which is the same file) and `delread~` of
`hvcc/interpreters/pd2hv/libs/pd/`, made of table objects (`Verif.Table`), `[__delay]` and arithmetic.

`HV_N_SIMD = 2^k`.  A signal is a function from sample numbers to samples; block `b` holds samples `b * 2^k + i`.
Arithmetic is exact (the float rounding of positions above `2^24` is not modelled) and timestamps do not wrap.  The messages
the two abstractions send themselves through `[__delay]` are kept in one queue per abstraction, ordered by timestamp, those with
equal timestamps in the order of scheduling (HvMessageQueue.c, model `Verif.MessageQueue`); the queues are kept apart because
the messages of `delwrite~` touch only the write head and the samples, those of `delread~` only its read head, and the latter look
only at the table's head and size, which no message changes.
-/
namespace Verif.DelayLine
open Verif.Tab
open Verif.Msg (R Err)

/-- insertion by timestamp, `mq_addMessageByTimestamp`, HvMessageQueue.c:62-115 -/
def push {ε : Type} (q : List (Nat × ε)) (t : Nat) (e : ε) : List (Nat × ε) :=
  q.takeWhile (fun p => decide (p.1 ≤ t)) ++ (t, e) :: q.dropWhile (fun p => decide (p.1 ≤ t))

/-! ## `delwrite~` -/

/-- the messages `delwrite~` schedules for itself: object 8 (`wrap`), whose period is the size of the table, and
object 12 (`mirror`), delwrite~.pd:17-36 -/
inductive WEv | wrap | mirror
  deriving DecidableEq, Repr

/-- the table of a delay line, the `__tabwrite~f` of `delwrite~`, the delay of its object 8 and its scheduled messages -/
structure Writer where
  tab : Table ℚ
  w : STabwrite
  period : Nat
  q : List (Nat × WEv)

/-- `delwrite~` at start: the table object is made with the default size 256 (heavy.lang.json:2084-2120) and filled by
`hTable_init`; the loadbang sends `resize (sr / 1000 * ms)` (objects 9, 2, 7, 3, 5), whose answer (object 13, right to left)
sets the delay of object 12 to `HV_N_SIMD`, that of object 8 to the size, and starts object 8.
`len` is `sr / 1000 * ms`. -/
def Writer.start (k : Nat) (junk : Nat → ℚ) (A : Alloc ℚ) (other : Nat) (len : ℚ) : R Writer := do
  let T ← init k junk 256
  let (T, size) ← onResizeMessage k A other T (.fin len)
  let w : STabwrite := { table := some 0, head := 0 }
  match size with
  | none => .ok { tab := T, w := w, period := 0, q := [] }
  | some n => .ok { tab := T, w := w, period := n, q := [(n, .wrap)] }

/-- one message of `delwrite~` at time `t`.  `wrap`: object 10 sends, right to left, to object 12 (schedules `mirror`
after `HV_N_SIMD` samples), to object 8 (schedules the next `wrap`) and a bang to `__tabwrite~f`; delwrite~.pd:47-52. -/
def Writer.fire (k : Nat) (s : Writer) (t : Nat) : WEv → R Writer
  | .wrap => do
    let q := push (push s.q (t + 2 ^ k) .mirror) (t + s.period) .wrap
    let (w, _) ← sTabwriteMsg 0 [s.tab] s.w 1 .bang
    .ok { s with w := w, q := q }
  | .mirror => do
    let T ← Tab.mirror k s.tab
    .ok { s with tab := T }

/-- the messages due before time `lim` (Heavy_NAME.cpp:210-222).  `fuel` bounds the number of messages; running out of
it is an error. -/
def Writer.dispatch (k : Nat) : Nat → Nat → Writer → R Writer
  | 0, _, _ => .error .ub
  | fuel + 1, lim, s =>
    match s.q with
    | [] => .ok s
    | (t, e) :: q =>
      if t < lim then do
        let s ← Writer.fire k { s with q := q } t e
        Writer.dispatch k fuel lim s
      else .ok s

/-- the messages of block `b`, before its signal functions run -/
def Writer.messages (k fuel b : Nat) (s : Writer) : R Writer := Writer.dispatch k fuel ((b + 1) * 2 ^ k) s

/-- `__tabwrite~f` on block `b` of the input -/
def Writer.write (k : Nat) (x : Nat → ℚ) (b : Nat) (s : Writer) : R Writer := do
  let (w, ts) ← sTabwriteF [s.tab] s.w ((List.range (2 ^ k)).map fun i => x (b * 2 ^ k + i))
  let T ← deref ts (some 0)
  .ok { s with w := w, tab := T }

/-- the state after `b` blocks -/
def Writer.after (k fuel : Nat) (x : Nat → ℚ) (s : Writer) : Nat → R Writer
  | 0 => .ok s
  | b + 1 => do
    let s ← Writer.after k fuel x s b
    let s ← Writer.messages k fuel b s
    Writer.write k x b s

/-! ## `vd~` and `delread4~` -/

/-- objects 24, 28, 15, 33, 32, 6: lane `i` reads at `head + (i - N) - max(0, min(delay, size - 1))`; vd~.pd (identical to
delread4~.pd).  `d` is the delay in samples (objects 2, 3, 23), `S` the size reported at the loadbang (objects 5, 36).  The lanes
`-N, …, -1` are those of `__var_k~f -1 -1 true`. -/
def vdPos (k S head : Nat) (d : ℚ) (i : Nat) : ℚ := (head : ℚ) + ((i : ℚ) - 2 ^ k) - max (min d ((S : ℚ) - 1)) 0

/-- objects 37, 17, 14, 7, 18: `floor`, and `size` added when it is negative -/
def vdIdx (S : Nat) (p : ℚ) : Int := ⌊p⌋ + if ⌊p⌋ < 0 then (S : Int) else 0

/-- `vd~` on one block: the two table reads (objects 26; 20, 19, 25) and the interpolation (objects 10, 9, 11, 12) -/
def vd (k S : Nat) (T : Table ℚ) (d : Nat → ℚ) : R (List ℚ) := do
  let o : STabread := { table := some 0, head := 0, last := 0, aligned := false, playing := false }
  let is := (List.range (2 ^ k)).map fun i => vdIdx S (vdPos k S T.head (d i) i)
  let as ← sTabreadIf [T] o is
  let bs ← sTabreadIf [T] o (is.map (· + 1))
  .ok ((List.range (2 ^ k)).map fun i =>
    let p := vdPos k S T.head (d i) i
    as.getD i 0 + (bs.getD i 0 - as.getD i 0) * (p - (⌊p⌋ : ℚ)))

/-- output of a `vd~` in block `b` whose signal functions run after those of `delwrite~`; `d` is the delay signal -/
def vdAfter (k fuel : Nat) (x d : Nat → ℚ) (s : Writer) (b : Nat) : R (List ℚ) := do
  let s ← Writer.after k fuel x s (b + 1)
  vd k s.tab.size s.tab fun i => d (b * 2 ^ k + i)

/-- output of a `vd~` in block `b` whose signal functions run before those of `delwrite~` -/
def vdBefore (k fuel : Nat) (x d : Nat → ℚ) (s : Writer) (b : Nat) : R (List ℚ) := do
  let s ← Writer.after k fuel x s b
  let s ← Writer.messages k fuel b s
  vd k s.tab.size s.tab fun i => d (b * 2 ^ k + i)

/-! ## `delread~` -/

/-- the messages of `delread~`: a new delay (in samples: `sr / 1000 * ms`, objects 1, 4, 3), object 9 (`first`) and
object 15 (`loop`) -/
inductive REv
  | set (d : ℚ)
  | first
  | loop

def REv.isSet : REv → Bool
  | .set _ => true
  | _ => false

/-- the `__tabread~f` of `delread~` and the scheduled messages -/
structure Reader where
  rd : STabread
  q : List (Nat × REv)

/-- one message of `delread~` at time `t`, delread~.pd:70-104.  `set`: object 28, right to left: the size of the table (object 6) goes
to objects 30 and 15; `max(d, HV_N_SIMD)` (object 25) is subtracted from the table's head (objects 0, 5); then object 26, right to
left: `clear` to objects 9 and 15, the position to `__tabread~f`, whose answer, the aligned head, sets the delay of object 9
to `size - head` (objects 30, 29), a bang to object 9.  `first`: object 15 is started and `__tabread~f` gets a bang; `loop`: the same. -/
def Reader.fire (k other : Nat) (T : Table ℚ) (s : Reader) (t : Nat) : REv → R Reader
  | .set d => do
    let h : ℚ := (T.head : ℚ) - max d (2 ^ k)
    let q := s.q.filter fun p => p.2.isSet
    let rd ← sTabreadMsg k other [T] s.rd 0 (.float (.fin h))
    let delay := (max 0 (-((rd.head : Int) - (T.size : Int)))).toNat
    .ok { rd := rd, q := push q (t + delay) .first }
  | _ => do
    let rd ← sTabreadMsg k other [T] s.rd 0 .bang
    .ok { rd := rd, q := push s.q (t + T.size) .loop }

/-- the messages due before time `lim` -/
def Reader.dispatch (k other : Nat) (T : Table ℚ) : Nat → Nat → Reader → R Reader
  | 0, _, _ => .error .ub
  | fuel + 1, lim, s =>
    match s.q with
    | [] => .ok s
    | (t, e) :: q =>
      if t < lim then do
        let s ← Reader.fire k other T { s with q := q } t e
        Reader.dispatch k other T fuel lim s
      else .ok s

/-- new delays arriving at the times `ms` are queued -/
def Reader.receive (s : Reader) (ms : List (Nat × ℚ)) : Reader :=
  { s with q := ms.foldl (fun q m => push q m.1 (.set m.2)) s.q }

/-- `delread~` at start, with the delay of its argument: the loadbang of priority -1 comes after that of `delwrite~`
(objects 17, 27, 28) -/
def Reader.start (T : Table ℚ) (d : ℚ) : Reader := { rd := sTabreadInit T 0 true, q := [(0, .set d)] }

/-- one block of a delay line with a `delread~`: messages, then the signal functions, `late` telling whether that of
`delread~` runs after that of `delwrite~`.  `ms` are the new delays, with their times. -/
def block (k fuel other : Nat) (late : Bool) (x : Nat → ℚ) (ms : List (Nat × ℚ)) (b : Nat) (s : Writer × Reader) :
    R ((Writer × Reader) × List ℚ) := do
  let w ← Writer.messages k fuel b s.1
  let r ← Reader.dispatch k other w.tab (fuel + 2 * ms.length) ((b + 1) * 2 ^ k) (s.2.receive ms)
  let w' ← Writer.write k x b w
  let (rd, out) ← sTabreadF k [if late then w'.tab else w.tab] r.rd
  .ok ((w', { r with rd := rd }), out)

/-- the state after `b` blocks, `ms b` being the messages of block `b` -/
def after (k fuel other : Nat) (late : Bool) (x : Nat → ℚ) (ms : Nat → List (Nat × ℚ)) (s : Writer × Reader) :
    Nat → R (Writer × Reader)
  | 0 => .ok s
  | b + 1 => do
    let s ← after k fuel other late x ms s b
    let (s, _) ← block k fuel other late x (ms b) b s
    .ok s

/-- the output of `delread~` in block `b` -/
def delread (k fuel other : Nat) (late : Bool) (x : Nat → ℚ) (ms : Nat → List (Nat × ℚ)) (s : Writer × Reader) (b : Nat) :
    R (List ℚ) := do
  let s ← after k fuel other late x ms s b
  let (_, out) ← block k fuel other late x (ms b) b s
  .ok out

end Verif.DelayLine
