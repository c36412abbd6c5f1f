/-!
The channels of a program: `PdAudioIoObject.to_hv` (hvcc/interpreters/pd2hv/PdAudioIoObject.py:41-52), `HeavyGraph.add_object`
(hvcc/core/hv2ir/HeavyGraph.py:196-201), `get_input_channel_set`, `get_output_channel_set` (363-385), `to_ir` (873-893), the buffers that
`HLangAdc.reduce` and `HLangDac.reduce` use (HLangAdc.py:38-54, HLangDac.py:34-50) and those that the generated C++ declares
(hvcc/generators/ir2c/templates/Heavy_NAME.cpp:201-206, 222-246, Heavy_NAME.hpp:19-20).
-/
namespace Verif.Channels

/-- the objects of a graph -/
inductive Obj
  | adc (channels : List Int)
  | dac (channels : List Int)
  | other
  deriving DecidableEq, Repr

/-- a graph with its subgraphs -/
inductive Graph
  | mk (objs : List Obj) (subs : List Graph)

/-- PdAudioIoObject.py:45: the arguments of `[adc~]` and `[dac~]`; without arguments 1 and 2 -/
def ofArgs (args : List Int) : List Int := if args = [] then [1, 2] else args

/-- what an object adds to `input_channel_set`, HeavyGraph.py:197 -/
def ins : Obj → List Int
  | .adc l => l
  | _ => []

/-- what an object adds to `output_channel_set`, HeavyGraph.py:201 -/
def outs : Obj → List Int
  | .dac l => l
  | _ => []

mutual
/-- `get_input_channel_set(recursive=True)` (`f := ins`) and `get_output_channel_set(recursive=True)` (`f := outs`), HeavyGraph.py:363-385; the
sets as lists -/
def channelSet (f : Obj → List Int) : Graph → List Int
  | .mk objs subs => objs.flatMap f ++ channelSets f subs
/-- the loop over the subgraphs, HeavyGraph.py:369-370 -/
def channelSets (f : Obj → List Int) : List Graph → List Int
  | [] => []
  | g :: gs => channelSet f g ++ channelSets f gs
end

/-- `max(s) if len(s) > 0 else 0`, HeavyGraph.py:887-888: `numInputBuffers`, `numOutputBuffers` -/
def count (l : List Int) : Int := l.max?.getD 0

/-- the indices of the buffers that are declared, read from or written to the host: `range(n)`, Heavy_NAME.cpp:201-206, 222-246 -/
def declared (f : Obj → List Int) (g : Graph) : List Int := (List.range (count (channelSet f g)).toNat).map Int.ofNat

/-- the index of the buffer of a channel: `channel_index - 1`, HLangAdc.py:48, HLangDac.py:44-45 -/
def buffer (c : Int) : Int := c - 1

end Verif.Channels
