import Verif.Message
/-!
Messages between a host and a running patch, byte by byte on one memory (`Verif.Msg` for the messages).

`ReceiverMessagePair` (HvMessage.h:49-52) is `{ hv_uint32_t receiverHash; HvMessage msg; }`: 32 bytes on a
64-bit platform, the hash at 0 and the message at 8.  The queue itself (which bytes `hLp_getWriteBuffer` and
`hLp_getReadBuffer` give, and in which order) is `Verif.LightPipe`; here `p` is the address it gave.
-/
namespace Verif.HostMsg
open Mem Msg

/-- `HeavyContext::sendMessageToReceiver`, HeavyContext.cpp:114-137, when the queue gave the address `p`: the
memory afterwards and the number of bytes handed to `hLp_produce`.  `ts` is the time computed in lines 118-119
(`Verif.Scheduler`). -/
def sendMessage (fuel : Nat) (M : Mem) (p hash ts m : Nat) : R (Mem × Nat) := do
  let size := getSize M m
  let M ← copyToBuffer fuel (wr M p 4 hash) m (p + 8) size
  .ok (setTimestamp M (p + 8) ts, 32 + size - 24)

/-- `defaultSendHook`, HeavyContext.cpp:20-34, when the out queue gave the address `p` -/
def defaultSendHook (fuel : Nat) (M : Mem) (p hash m : Nat) : R (Mem × Nat) := do
  let size := getSize M m
  let M ← copyToBuffer fuel (wr M p 4 hash) m (p + 8) size
  .ok (M, 32 + size - 24)

/-- `sendBangToReceiver`, HeavyContext.cpp:68-73; `st` is the address `HV_MESSAGE_ON_STACK` gave -/
def sendBang (fuel : Nat) (M : Mem) (st p hash ts : Nat) : R (Mem × Nat) := do
  sendMessage fuel (← initWithBang M st 0) p hash ts st

/-- `sendFloatToReceiver`, HeavyContext.cpp:75-80 -/
def sendFloat (fuel : Nat) (M : Mem) (st p hash ts : Nat) (f : BitVec 32) : R (Mem × Nat) := do
  sendMessage fuel (← initWithFloat M st 0 f) p hash ts st

/-- `sendSymbolToReceiver`, HeavyContext.cpp:82-88 -/
def sendSymbol (fuel : Nat) (M : Mem) (st p hash ts s : Nat) : R (Mem × Nat) := do
  assert (s ≠ 0)
  sendMessage fuel (← initWithSymbol fuel M st 0 s) p hash ts st

/-- a variable argument of `sendMessageToReceiverV`; a `double` already rounded to `float` -/
inductive Arg
  | dbl (f : BitVec 32)
  | int (h : BitVec 32)
  | ptr (s : Nat)

/-- the loop of `sendMessageToReceiverV`, HeavyContext.cpp:99-107; reading an argument that is not there or has
another type is undefined -/
def fillV (fuel : Nat) (M : Mem) (m : Nat) : Nat → List Byte → List Arg → R Mem
  | _, [], _ => .ok M
  | i, c :: cs, as =>
    if c = chB then do fillV fuel (← setBang M m (i : Int)) m (i + 1) cs as
    else if c = chF then
      match as with
      | .dbl f :: as => do fillV fuel (← setFloat M m (i : Int) f) m (i + 1) cs as
      | _ => .error .ub
    else if c = chH then
      match as with
      | .int h :: as => do fillV fuel (← setHash M m (i : Int) h) m (i + 1) cs as
      | _ => .error .ub
    else if c = chS then
      match as with
      | .ptr s :: as => do fillV fuel (← setSymbol fuel M m (i : Int) s) m (i + 1) cs as
      | _ => .error .ub
    else fillV fuel M m (i + 1) cs as

/-- `sendMessageToReceiverV`, HeavyContext.cpp:90-112, for a format text of these characters -/
def sendV (fuel : Nat) (M : Mem) (st p hash ts : Nat) (fmt : List Byte) (as : List Arg) : R (Mem × Nat) := do
  let M ← init M st fmt.length ts
  let M ← fillV fuel M st 0 fmt as
  sendMessage fuel M p hash ts st

/-- a Pure Data atom: `A_FLOAT`, `A_SYMBOL` (the address of `s_name`), any other type -/
inductive Atom
  | float (f : BitVec 32)
  | sym (s : Nat)
  | other

/-- the loop of `onMessage`, c2pdext/templates/pd_external.c:136-142; `none` is the `return` -/
def fillPd (fuel : Nat) (M : Mem) (m : Nat) : Nat → List Atom → R (Option Mem)
  | _, [] => .ok (some M)
  | i, .float f :: as => do fillPd fuel (← setFloat M m (i : Int) f) m (i + 1) as
  | i, .sym s :: as => do fillPd fuel (← setSymbol fuel M m (i : Int) s) m (i + 1) as
  | _, .other :: _ => .ok none

/-- the conversion in `onMessage`, c2pdext/templates/pd_external.c:132-146 -/
def convertPd (fuel : Nat) (M : Mem) (st : Nat) (as : List Atom) : R (Option Mem) :=
  if 0 < as.length then do fillPd fuel (← init M st as.length 0) st 0 as
  else do .ok (some (← setBang (← init M st 1 0) st 0))

/-- `onMessage`, c2pdext/templates/pd_external.c:131-148: a message with selector text at `sel` and these
arguments; `none` when nothing is sent -/
def onMessage (fuel : Nat) (M : Mem) (st p ts sel : Nat) (as : List Atom) : R (Option (Mem × Nat)) := do
  match ← convertPd fuel M st as with
  | none => .ok none
  | some M => do .ok (some (← sendMessage fuel M p (← strHash fuel M sel).toNat ts st))

/-- what Pure Data gets: `outlet_float`, `outlet_bang`, `outlet_symbol`, `outlet_list`; `gensym` is modelled by
the text it is given -/
inductive PdAtom
  | float (f : BitVec 32)
  | sym (s : List Byte)
  deriving DecidableEq

inductive PdOut
  | float (f : BitVec 32)
  | bang
  | sym (s : List Byte)
  | list (l : List PdAtom)
  deriving DecidableEq

/-- `gensym(hv_msg_getSymbol(m, i))` -/
def gensym (fuel : Nat) (M : Mem) (m : Nat) (i : Int) : R (List Byte) := do
  let s ← getSymbol M m i
  .ok (chars M s (← strlenR fuel M s))

/-- the loop of `sendHook`, c2pdext/templates/pd_external.c:51-57 -/
def hookLoop (fuel : Nat) (M : Mem) (m : Nat) : Nat → Nat → R (Option (List PdAtom))
  | _, 0 => .ok (some [])
  | i, k + 1 => do
    if ← isType tFloat M m (i : Int) then
      let f ← getFloat M m (i : Int)
      .ok ((← hookLoop fuel M m (i + 1) k).map (PdAtom.float f :: ·))
    else if ← isType tSymbol M m (i : Int) then
      let s ← gensym fuel M m (i : Int)
      .ok ((← hookLoop fuel M m (i + 1) k).map (PdAtom.sym s :: ·))
    else .ok none

/-- `sendHook`, c2pdext/templates/pd_external.c:37-61, for a message to `HV_TO_PD` -/
def sendHook (fuel : Nat) (M : Mem) (m : Nat) : R (Option PdOut) := do
  if numElements M m = 1 then
    if ← isType tFloat M m 0 then .ok (some (.float (← getFloat M m 0)))
    else if ← isType tBang M m 0 then .ok (some .bang)
    else if ← isType tSymbol M m 0 then .ok (some (.sym (← gensym fuel M m 0)))
    else .ok none
  else
    .ok ((← hookLoop fuel M m 0 (numElements M m)).map PdOut.list)

/-- `getNextSentMessage`, HeavyContext.cpp:196-219, when the out queue has the record of `numBytes` bytes at `p`:
the memory afterwards and the hash -/
def getNextSent (M : Mem) (p numBytes out len : Nat) : R (Mem × Nat) := do
  assert (32 ≤ numBytes)
  assert (numBytes ≤ len)
  .ok (memcpy M out (p + 8) numBytes, rd M p 4)

/-- the number the web page gets from a message that is not MIDI, c2js/template/hv_worklet.js:133-137 -/
def webHook (M : Mem) (m : Nat) : R (BitVec 32) := getFloat M m 0

end Verif.HostMsg
