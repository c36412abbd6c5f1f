import Verif.Midi
/-!
Model of `hvcc/generators/c2dpf/templates/hostTransportEvents.cpp` (called once per block from `run`,
HeavyDPF.cpp:203-224): the MIDI realtime messages made from the host's transport.

The positions are exact rationals: the code rounds `samplesPerBeat` and `samplesPerTick` to `float` and adds them up in
`double`.
-/
namespace Verif.Transport
open Verif.Midi (Sent MIDIREALTIMEIN)

/-- what the code looks at in the host's `TimePosition`: `playing`, `frame`, `bbt.valid` and `bbt.beatsPerMinute` -/
structure Pos where
  playing : Bool
  frame : Nat
  valid : Bool
  bpm : Rat

/-- the members `wasPlaying`, `nextClockTick`, `sampleAtCycleStart` -/
structure State where
  wasPlaying : Bool
  next : Rat
  start : Rat

/-- their initial values, HeavyDPF.hpp:149-151 -/
def init : State := ⟨false, 0, 0⟩

def CLOCK : Rat := 0xF8
def START : Rat := 0xFA
def CONTINUE : Rat := 0xFB
def STOP : Rat := 0xFC
def RESET : Rat := 0xFF

/-- `sendMessageToReceiverV(HV_HASH_MIDIREALTIMEIN, ms, "ff", (float) b, 0.0)` -/
def rt (ms b : Rat) : Sent := ⟨MIDIREALTIMEIN, ms, [b, 0]⟩

/-- hostTransportEvents.cpp:10-37 -/
def transport (was : Bool) (p : Pos) : List Sent :=
  if p.playing then
    let reset := decide (p.frame = 0)
    (if p.frame = 0 then [rt 0 RESET] else []) ++
    (if !was then
      (if p.frame = 0 then [rt 0 START] else []) ++ (if !reset then [rt 0 CONTINUE] else [])
    else [])
  else if was then [rt 0 STOP] else []

/-- hostTransportEvents.cpp:53-60, the `while` loop; the number bounds its passes, `none` says that they were not
enough -/
def ticks (sr tick start stop : Rat) : Nat → Rat → Option (List Sent × Rat)
  | 0, next => if next < stop then none else some ([], next)
  | n + 1, next =>
    if next < stop then do
      let ms := 1000 * (next - start) / sr
      let (l, r) ← ticks sr tick start stop n (next + tick)
      some ((if 0 ≤ ms then [rt ms CLOCK] else []) ++ l, r)
    else some ([], next)

/-- hostTransportEvents.cpp:41-67 -/
def clock (sr : Rat) (fuel : Nat) (s : State) (p : Pos) (frames : Nat) : Option (State × List Sent) :=
  if p.playing && p.valid then do
    let samplesPerBeat := 60 * sr / p.bpm
    let samplesPerTick := samplesPerBeat / 24
    let stop := s.start + frames
    if 0 ≤ s.next ∧ 0 ≤ s.start ∧ s.start < stop then do
      let (l, next) ← ticks sr samplesPerTick s.start stop fuel s.next
      some ({ s with next := next, start := stop }, l)
    else some ({ s with start := stop }, [])
  else some (s, [])

/-- `hostTransportEvents(frames)`: hostTransportEvents.cpp:4-69 -/
def block (sr : Rat) (fuel : Nat) (s : State) (p : Pos) (frames : Nat) : Option (State × List Sent) := do
  let t := transport s.wasPlaying p
  let s := { s with wasPlaying := p.playing }
  let (s, l) ← clock sr fuel s p frames
  some (s, t ++ l)

/-- the blocks of a session, each with its number of frames and the transport at that time; the messages of each block -/
def blocks (sr : Rat) (fuel : Nat) : State → List (Pos × Nat) → Option (List (List Sent))
  | _, [] => some []
  | s, (p, frames) :: bs => do
    let (s, l) ← block sr fuel s p frames
    let ls ← blocks sr fuel s bs
    some (l :: ls)

end Verif.Transport
