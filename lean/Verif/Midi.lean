import Verif.Binop
/-!
Model of the MIDI code of the targets:
`hvcc/generators/c2dpf/templates/midiInput.cpp`, `hvcc/generators/c2dpf/templates/midiOutput.cpp` (DPF) and
`sendMidiIn`/`sendMidiOut` of `hvcc/generators/c2js/template/hv_worklet.js` (JS; `hv_wrapper.js:334-465` has the same
two functions).

Floats are exact rationals: all numbers below are integers smaller than 2^24, for which the conversions of C are exact;
the product and quotient that give the delay in milliseconds are not rounded.  A read outside an object, a missing
variadic argument, a float that does not fit its integer type and the use of an uninitialised variable are
undefined behaviour and give `ub`.
-/
namespace Verif.Midi
open Verif.Msg (R Err)
open Verif.Binop (trunc)

abbrev Byte := BitVec 8

/-- `MidiEvent` of DPF (DistrhoPlugin.hpp): `frame`, and `data[kDataSize]` with `kDataSize = 4` -/
structure Event where
  frame : Nat
  data : Fin 4 → Byte

/-- one call of `_context->sendMessageToReceiverV(hash, ms, "f…f", args…)` -/
structure Sent where
  hash : Nat
  ms : Rat
  args : List Rat
  deriving DecidableEq

/-! `HV_HASH_*`, HeavyDPF.cpp:13-29; `hv_worklet.js:365-372` has the same numbers -/
def NOTEIN : Nat := 0x67E37CA3
def CTLIN : Nat := 0x41BE0f9C
def POLYTOUCHIN : Nat := 0xBC530F59
def PGMIN : Nat := 0x2E1EA03D
def TOUCHIN : Nat := 0x553925BD
def BENDIN : Nat := 0x3083F0F7
def MIDIIN : Nat := 0x149631bE
def MIDIREALTIMEIN : Nat := 0x6FFF0BCF
def NOTEOUT : Nat := 0xD1D4AC2
def CTLOUT : Nat := 0xE5e2A040
def POLYTOUCHOUT : Nat := 0xD5ACA9D1
def PGMOUT : Nat := 0x8753E39E
def TOUCHOUT : Nat := 0x476D4387
def BENDOUT : Nat := 0xE8458013
def MIDIOUT : Nat := 0x6511DE55

/-- `mrtSet`, HeavyDPF.cpp:41-47 -/
def mrtSet : List Byte := [0xF8, 0xFA, 0xFB, 0xFC, 0xFF]

/-- `(((hv_uint32_t) data2) << 7) | ((hv_uint32_t) data1)`, midiInput.cpp:73 -/
def bendValue (data1 data2 : Byte) : BitVec 32 := (data2.zeroExtend 32 <<< 7) ||| data1.zeroExtend 32

/-- midiInput.cpp:17-22, the loop for `[midiin]`: its variable `i` hides the one of the outer loop, so pass `i` reads
byte `i` of event `i`.  `dataSize` (line 15) is the number of elements of the array `data`, 4. -/
def rawLoop (buf : List Event) (ms : Rat) (channel : Byte) : List (Fin 4) → R (List Sent)
  | [] => .ok []
  | i :: is => do
    match buf[i.val]? with
    | none => .error .ub
    | some e => .ok (⟨MIDIIN, ms, [((e.data i).toNat : Rat), (channel.toNat : Rat)]⟩ :: (← rawLoop buf ms channel is))

/-- midiInput.cpp:24-28: the format `"ff"` asks for two arguments, and one is given -/
def realtime (status : Byte) : R (List Sent) :=
  if status ∈ mrtSet then .error .ub else .ok []

/-- midiInput.cpp:31-79, the switch -/
def typical (ms : Rat) (status data1 data2 : Byte) : List Sent :=
  let command := status &&& 0xF0#8
  let channel : Rat := ((status &&& 0x0F#8).toNat : Rat)
  let d1 : Rat := (data1.toNat : Rat)
  let d2 : Rat := (data2.toNat : Rat)
  if command = 0x80#8 then [⟨NOTEIN, ms, [d1, 0, channel]⟩]
  else if command = 0x90#8 then [⟨NOTEIN, ms, [d1, d2, channel]⟩]
  else if command = 0xA0#8 then [⟨POLYTOUCHIN, ms, [d2, d1, channel]⟩]
  else if command = 0xB0#8 then [⟨CTLIN, ms, [d2, d1, channel]⟩]
  else if command = 0xC0#8 then [⟨PGMIN, ms, [d1, channel]⟩]
  else if command = 0xD0#8 then [⟨TOUCHIN, ms, [d1, channel]⟩]
  else if command = 0xE0#8 then [⟨BENDIN, ms, [((bendValue data1 data2).toNat : Rat), channel]⟩]
  else []

/-- midiInput.cpp:9-80: one pass of the loop.  All delays are computed from `midiEvents->frame`, the frame of the
first event. -/
def event (sr : Rat) (buf : List Event) (first e : Event) : R (List Sent) := do
  let ms : Rat := 1000 * first.frame / sr
  let raw ← rawLoop buf ms (e.data 0 &&& 0x0F#8) [0, 1, 2, 3]
  let rt ← realtime (e.data 0)
  .ok (raw ++ rt ++ typical ms (e.data 0) (e.data 1) (e.data 2))

/-- the loop over the events -/
def events (sr : Rat) (buf : List Event) (first : Event) : List Event → R (List Sent)
  | [] => .ok []
  | e :: es => do
    let a ← event sr buf first e
    .ok (a ++ (← events sr buf first es))

/-- `handleMidiInput(frames, midiEvents, midiEventCount)`, midiInput.cpp:4-81.  `buf` is the host's array, of which the
first `count` elements are events of this block. -/
def handleMidiInput (sr : Rat) (buf : List Event) (count : Nat) : R (List Sent) :=
  match buf.take count with
  | [] => .ok []
  | e :: es => if count ≤ buf.length then events sr buf e (e :: es) else .error .ub

/-! ### output -/

/-- `hv_msg_getFloat(m, i)` (HvHeavy.cpp:80) on a message of numbers -/
def getFloat (m : List Rat) (i : Nat) : R Rat :=
  match m[i]? with
  | some q => .ok q
  | none => .error .ub

/-- conversion of a float to `uint8_t` -/
def toU8 (q : Rat) : R Byte := if 0 ≤ trunc q ∧ trunc q < 256 then .ok (BitVec.ofInt 8 (trunc q)) else .error .ub
/-- conversion of a float to `uint16_t` -/
def toU16 (q : Rat) : R (BitVec 16) := if 0 ≤ trunc q ∧ trunc q < 65536 then .ok (BitVec.ofInt 16 (trunc q)) else .error .ub

/-- the members `midiOutCount` and `midiOutEvent.data` of the plugin, HeavyDPF.hpp:154-155.  `none`: not initialised;
neither the class nor its constructor (HeavyDPF.cpp:82-100) gives `midiOutCount` a value. -/
structure OutState where
  count : Option Nat
  data : Fin 4 → Byte

/-- the state after construction; the bytes may be anything -/
def newState (data : Fin 4 → Byte) : OutState := ⟨none, data⟩

/-- `handleMidiSend(sendHash, m)`, midiOutput.cpp:4-124: the new state and the data of the events written.  The frame is
0 in all of them. -/
def handleMidiSend (s : OutState) (hash : Nat) (m : List Rat) : R (OutState × List (List Byte)) :=
  if hash = NOTEOUT then do
    let note ← toU8 (← getFloat m 0)
    let velocity ← toU8 (← getFloat m 1)
    let ch ← toU8 (← getFloat m 2)
    let ch := ch % 16#8
    .ok (s, [[if 0#8 < velocity then 0x90#8 ||| ch else 0x80#8 ||| ch, note, velocity]])
  else if hash = CTLOUT then do
    let value ← toU8 (← getFloat m 0)
    let cc ← toU8 (← getFloat m 1)
    let ch ← toU8 (← getFloat m 2)
    let ch := ch % 16#8
    .ok (s, [[0xB0#8 ||| ch, cc, value]])
  else if hash = POLYTOUCHOUT then do
    let value ← toU8 (← getFloat m 0)
    let note ← toU8 (← getFloat m 1)
    let ch ← toU8 (← getFloat m 2)
    .ok (s, [[0xA0#8 ||| ch, note, value]])
  else if hash = PGMOUT then do
    let pgm ← toU8 (← getFloat m 0)
    let ch ← toU8 (← getFloat m 1)
    let ch := ch % 16#8
    .ok (s, [[0xC0#8 ||| ch, pgm]])
  else if hash = TOUCHOUT then do
    let value ← toU8 (← getFloat m 0)
    let ch ← toU8 (← getFloat m 1)
    let ch := ch % 16#8
    .ok (s, [[0xD0#8 ||| ch, value]])
  else if hash = BENDOUT then do
    let value ← toU16 (← getFloat m 0)
    let lsb := (value &&& 0x7F#16).truncate 8
    let msb := ((value >>> 7) &&& 0x7F#16).truncate 8
    let ch ← toU8 (← getFloat m 1)
    let ch := ch % 16#8
    .ok (s, [[0xE0#8 ||| ch, lsb, msb]])
  else if hash = MIDIOUT then do
    match s.count with
    | none => .error .ub
    | some c =>
      if h : c < 4 then do
        let b ← toU8 (← getFloat m 0)
        let data := fun j => if j = ⟨c, h⟩ then b else s.data j
        if c < 3 then .ok (⟨some (c + 1), data⟩, [])
        else .ok (⟨some 0, data⟩, [[data 0, data 1, data 2, data 3]])
      else .error .ub
  else .ok (s, [])

/-- a sequence of messages sent by the patch -/
def sends (s : OutState) : List (Nat × List Rat) → R (OutState × List (List Byte))
  | [] => .ok (s, [])
  | (h, m) :: ms => do
    let (s, a) ← handleMidiSend s h m
    let (s, b) ← sends s ms
    .ok (s, a ++ b)

/-! ### the JS target -/

/-- a JS number: NaN is `none`; the numbers are otherwise finite.  `undefined` turns into NaN on its way into the
compiled module. -/
abbrev Num := Option Rat

/-- `message[i]` -/
def jsAt (message : List Byte) (i : Nat) : Num := (message[i]?).map fun b => (b.toNat : Rat)

/-- a call of `_hv_sendMessageToReceiverFF(ctx, hash, 0, …)` or `…FFF` -/
structure JsSent where
  hash : Nat
  args : List Num
  deriving DecidableEq

/-- `MIDI_REALTIME`, hv_worklet.js:374 -/
def jsRealtime : List Byte := [0xF8, 0xFA, 0xFB, 0xFC, 0xFE, 0xFF]

/-- `sendMidiIn`, hv_worklet.js:227-295, on a message of at least one byte -/
def jsMidiIn (message : List Byte) (status : Byte) : List JsSent :=
  let command := status &&& 0xF0#8
  let channel : Num := some ((status &&& 0x0F#8).toNat : Rat)
  let data1 := jsAt message 1
  let data2 := jsAt message 2
  [⟨MIDIIN, [jsAt message 1, channel]⟩, ⟨MIDIIN, [jsAt message 2, channel]⟩] ++
  (if status ∈ jsRealtime then [⟨MIDIREALTIMEIN, [some (status.toNat : Rat), none]⟩] else []) ++
  (if command = 0x80#8 then [⟨NOTEIN, [data1, some 0, channel]⟩]
  else if command = 0x90#8 then [⟨NOTEIN, [data1, data2, channel]⟩]
  else if command = 0xA0#8 then [⟨POLYTOUCHIN, [data2, data1, channel]⟩]
  else if command = 0xB0#8 then [⟨CTLIN, [data2, data1, channel]⟩]
  else if command = 0xC0#8 then [⟨PGMIN, [data1, channel]⟩]
  else if command = 0xD0#8 then [⟨TOUCHIN, [data1, channel]⟩]
  else if command = 0xE0#8 then
    [⟨BENDIN, [match message[1]?, message[2]? with
      | some a, some b => some ((bendValue a b).toNat : Rat)
      -- `undefined` is 0 in a bit operation
      | some a, none => some ((bendValue a 0).toNat : Rat)
      | none, some b => some ((bendValue 0 b).toNat : Rat)
      | none, none => some 0, channel]⟩]
  else [])

/-- `x | 0` of a finite number: truncation, then reduction modulo 2^32 to a signed integer (ECMAScript `ToInt32`) -/
def toInt32 (q : Rat) : BitVec 32 := BitVec.ofInt 32 (trunc q)
/-- the number for an `int32` -/
def ofInt32 (b : BitVec 32) : Rat := (b.toInt : Rat)
/-- `x % 16` on numbers -/
def jsMod16 (q : Rat) : Rat := q - 16 * (trunc (q / 16) : Rat)

/-- `sendMidiOut(sendName, msg)`, hv_worklet.js:297-359 -/
def jsMidiOut (sendName : String) (m : List Rat) : R (List Rat) :=
  if sendName = "__hv_noteout" then do
    let note ← getFloat m 0
    let velocity ← getFloat m 1
    let channel := jsMod16 (← getFloat m 2)
    .ok [ofInt32 ((if 0 < velocity then 144#32 else 128#32) ||| toInt32 channel), note, velocity]
  else if sendName = "__hv_ctlout" then do
    let value ← getFloat m 0
    let cc ← getFloat m 1
    let channel := jsMod16 (← getFloat m 2)
    .ok [ofInt32 (176#32 ||| toInt32 channel), cc, value]
  else if sendName = "__hv_pgmout" then do
    let program ← getFloat m 0
    let channel := jsMod16 (← getFloat m 1)
    .ok [ofInt32 (192#32 ||| toInt32 channel), program]
  else if sendName = "__hv_touchout" then do
    let pressure ← getFloat m 0
    let channel := jsMod16 (← getFloat m 1)
    .ok [ofInt32 (208#32 ||| toInt32 channel), pressure]
  else if sendName = "__hv_polytouchout" then do
    let value ← getFloat m 0
    let note ← getFloat m 1
    let channel := jsMod16 (← getFloat m 2)
    .ok [ofInt32 (160#32 ||| toInt32 channel), note, value]
  else if sendName = "__hv_bendout" then do
    let value ← getFloat m 0
    let lsb := ofInt32 (toInt32 value &&& 0x7F#32)
    let msb := ofInt32 ((toInt32 value).sshiftRight 7 &&& 0x7F#32)
    let channel := jsMod16 (← getFloat m 1)
    .ok [ofInt32 (224#32 ||| toInt32 channel), lsb, msb]
  else if sendName = "__hv_midiout" then do
    let firstByte ← getFloat m 0
    if firstByte = 192 ∨ firstByte = 208 then .ok [firstByte, ← getFloat m 1]
    else .ok [firstByte, ← getFloat m 1, ← getFloat m 2]
  else .ok []

end Verif.Midi
