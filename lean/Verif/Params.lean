import Mathlib.Data.Rat.Defs
import Mathlib.Data.List.Basic
import Mathlib.Data.List.Sort
import Mathlib.Algebra.Order.Ring.Rat

/-!
# Parameters of the plugin

From `[r name @hv_param min max default type]` and `[s name @hv_param ...]` in a patch to the parameters of the generated DPF plugin:
hvcc/interpreters/pd2hv/PdReceiveObject.py:46-88, PdSendObject.py:39-78, hvcc/core/hv2ir/HIrReceive.py, HIrSend.py,
hvcc/core/hv2ir/HeavyGraph.py:742-785, 962-974, hvcc/compiler.py:62-170, hvcc/generators/c2dpf/templates/HeavyDPF.hpp:17-26,
HeavyDPF.cpp:83-171, 222-242, initParameter.cpp, hvcc/generators/ir2c/templates/Heavy_NAME.hpp:28-50.

Not modelled: `@raw` arguments, the meta file (port groups, enumerators), how a number is written in C, and events (`@hv_event`) beyond the
check that a name is not both.
-/
namespace Verif.Params

/-- `attributes` of an exported receiver or send -/
structure Attr where
  min : ℚ
  max : ℚ
  dflt : ℚ
  type : String
  deriving DecidableEq, Repr

/-- `extern` -/
inductive Ext
  | param
  | event
  deriving DecidableEq, Repr

/-- a `receive` (or `send`) object of the Heavy file: name, `extern`, `attributes` (`none`: the empty dictionary) -/
structure Obj where
  name : String
  ext : Option Ext
  attr : Option Attr
  deriving DecidableEq, Repr

/-- the values if nothing is written, PdReceiveObject.py:64-69 -/
def dfltAttr : Attr := ⟨0, 1, 1 / 2, "float"⟩

/-- PdReceiveObject.py:63-78 (PdSendObject.py:54-69): the four arguments are read one after the other; what follows one that is missing
or cannot be read keeps its value.  `rd` is Python's `float` of a string. -/
def readAttr (rd : String → Option ℚ) : List String → Attr
  | [] => dfltAttr
  | a :: as =>
    match rd a with
    | none => dfltAttr
    | some lo =>
      match as with
      | [] => { dfltAttr with min := lo }
      | b :: bs =>
        match rd b with
        | none => { dfltAttr with min := lo }
        | some hi =>
          match bs with
          | [] => { dfltAttr with min := lo, max := hi }
          | d :: ds =>
            match rd d with
            | none => { dfltAttr with min := lo, max := hi }
            | some df =>
              match ds with
              | [] => ⟨lo, hi, df, dfltAttr.type⟩
              | t :: _ => ⟨lo, hi, df, t⟩

/-- PdReceiveObject.py:46-92, for `r`/`receive` (PdSendObject.py:37-84, for `s`/`send`), with the name and the arguments after it;
`none`: an error is reported, and nothing is compiled -/
def pdObj (rd : String → Option ℚ) (name : String) (args : List String) : Option Obj :=
  match args with
  | "@hv_param" :: as =>
    let a := readAttr rd as
    if a.min ≤ a.dflt ∧ a.dflt ≤ a.max then some ⟨name, some .param, some a⟩ else none
  | "@hv_event" :: _ => some ⟨name, some .event, none⟩
  | _ => some ⟨name, none, none⟩

/-- HIrReceive.py:41-47, HIrSend.py:38-44: names of exported objects may only contain characters of words -/
def nameOk (isWord : Char → Bool) (o : Obj) : Bool := o.ext.isNone || o.name.toList.all isWord

/-! ### Python's dictionaries and sorting -/

/-- `d[k] = v`: the position of a key is the one it got first -/
def put {α : Type} (k : String) (v : α) : List (String × α) → List (String × α)
  | [] => [(k, v)]
  | (k', v') :: d => if k' = k then (k, v) :: d else (k', v') :: put k v d

/-- `dict(l)` -/
def dictOf {α : Type} (l : List (String × α)) : List (String × α) := l.foldl (fun d x => put x.1 x.2 d) []

/-- `l.sort(key=lambda x: x[0])` -/
def sortKeys {α : Type} (l : List (String × α)) : List (String × α) := l.insertionSort fun a b => a.1 ≤ b.1

/-! ### from the graph to the lists of parameters -/

/-- the receivers of one name, in the order of the graph -/
def named (n : String) (l : List Obj) : List Obj := l.filter fun o => o.name = n

/-- HeavyGraph.py:749-769: receivers of one name become one; `none` is an error -/
def groupOne (n : String) (l : List Obj) : Option Obj :=
  let exts := ((named n l).filterMap (·.ext)).dedup
  let attrs := (named n l).filterMap (·.attr)
  if 1 < exts.length then none
  else if attrs.any (fun a => attrs.head? ≠ some a) then none
  else some ⟨n, exts.head?, attrs.head?⟩

/-- HeavyGraph.py:742-785 -/
def group (l : List Obj) : Option (List Obj) := (l.map (·.name)).dedup.mapM fun n => groupOne n l

/-- HeavyGraph.py:967, HIrSend.py:58: a name that begins with a digit gets a `_` -/
def escape (isDigit : Char → Bool) (n : String) : String :=
  match n.toList with
  | c :: _ => if isDigit c then "_" ++ n else n
  | [] => n

/-- compiler.py:62-76: `true` if no error is reported -/
def noConflicts {α : Type} (upper : String → String) : List (String × α) → Bool
  | [] => true
  | x :: l => l.all (fun y => upper x.1 ≠ upper y.1) && noConflicts upper l

/-- compiler.py:92-101 -/
def midiOut : List String :=
  ["__hv_bendout", "__hv_ctlout", "__hv_midiout", "__hv_midioutport", "__hv_noteout", "__hv_pgmout", "__hv_polytouchout", "__hv_touchout"]

/-- what Python knows about characters, and the hash of a name (C16) -/
structure Lang where
  isWord : Char → Bool
  isDigit : Char → Bool
  upper : String → String
  hash : String → ℕ

/-- a parameter in the lists of the generators -/
structure Param where
  display : String
  attr : Attr
  hash : ℕ
  deriving DecidableEq, Repr

/-- `IRReceiver`, `IRSendMessage` -/
def Lang.param (L : Lang) (o : Obj) : Param := ⟨o.name, o.attr.getD dfltAttr, L.hash o.name⟩

/-- the objects that are parameters, under their keys -/
def Lang.entries (L : Lang) (l : List Obj) : List (String × Param) :=
  (l.filter fun o => o.ext = some .param).map fun o => (escape L.isDigit o.name, L.param o)

/-- HeavyGraph.py:962-974 (the dictionary is made of all receivers), compiler.py:132-134 -/
def Lang.inputs (L : Lang) (rs : List Obj) : List (String × Param) :=
  sortKeys (((dictOf (rs.map fun o => (escape L.isDigit o.name, o))).filter fun x => x.2.ext = some .param).map fun x => (x.1, L.param x.2))

/-- compiler.py:142-146 -/
def Lang.outputs (L : Lang) (ss : List Obj) : List (String × Param) := sortKeys (dictOf (L.entries ss))

/-- what the generator of plugins gets: `externs.parameters` -/
structure Externs where
  ins : List (String × Param)
  outs : List (String × Param)

/-- compiler.py:127-170, with the checks of the steps before; `none`: errors -/
def Lang.compile (L : Lang) (recvs sends : List Obj) : Option Externs :=
  match group recvs with
  | none => none
  | some rs =>
    if rs.all (nameOk L.isWord) && sends.all (nameOk L.isWord) && noConflicts L.upper (L.inputs rs) && noConflicts L.upper (L.outputs sends) then
      some ⟨L.inputs rs, (L.outputs sends).filter fun x =>
        ¬ ((sends.map fun o => escape L.isDigit o.name).filter (fun n => n ∈ midiOut)).contains x.1⟩
    else none

/-- the whole way, from the objects of the patch: names and the arguments after them -/
def Lang.plugin (L : Lang) (rd : String → Option ℚ) (recvs sends : List (String × List String)) : Option Externs :=
  match recvs.mapM (fun x => pdObj rd x.1 x.2), sends.mapM (fun x => pdObj rd x.1 x.2) with
  | some rs, some ss => L.compile rs ss
  | _, _ => none

/-- ir2c.py:305 and the filter `extern` (ir2c.py:139-143): the receivers that the context can be asked about, in the order of their keys -/
def Lang.exported (L : Lang) (rs : List Obj) : List (String × Obj) :=
  (sortKeys (dictOf (rs.map fun o => (escape L.isDigit o.name, o)))).filter fun x => x.2.ext.isSome

/-- `HvParameterInfo`: name, hash, is it a parameter (or an event), range and default value -/
structure Info where
  name : String
  hash : ℕ
  isParam : Bool
  min : ℚ
  max : ℚ
  dflt : ℚ
  deriving DecidableEq, Repr

/-- Heavy_NAME.cpp:113-127: one case of the switch -/
def Lang.infoOf (L : Lang) (o : Obj) : Info :=
  if o.ext = some .param then ⟨o.name, L.hash o.name, true, (o.attr.getD dfltAttr).min, (o.attr.getD dfltAttr).max, (o.attr.getD dfltAttr).dflt⟩
  else ⟨o.name, L.hash o.name, false, 0, 0, 0⟩

/-- Heavy_NAME.cpp:109-142: `getParameterInfo` of the context of a patch, with the receivers after grouping -/
def Lang.getParameterInfo (L : Lang) (rs : List Obj) (i : ℕ) : Info × ℕ :=
  ((match (L.exported rs)[i]? with
    | some x => L.infoOf x.2
    | none => ⟨"invalid parameter index", 0, true, 0, 0, 0⟩), (L.exported rs).length)

/-- the receivers of a patch that are left after grouping (`none`: errors) -/
def receivers (rd : String → Option ℚ) (recvs : List (String × List String)) : Option (List Obj) :=
  (recvs.mapM fun x => pdObj rd x.1 x.2).bind group

/-! ### the generated plugin -/

/-- HeavyDPF.hpp:17-26: `enum Parameters` -/
def Externs.enum (E : Externs) : List String := (E.ins ++ E.outs).map fun x => "param" ++ x.2.display

/-- the value of an enumerator -/
def Externs.index (E : Externs) (p : Param) : ℕ := E.enum.idxOf ("param" ++ p.display)

/-- Heavy_NAME.hpp:31-37: the values of `Parameter::In` -/
def Externs.inEnum (E : Externs) (upper : String → String) : List (String × ℕ) := E.ins.map fun x => (upper x.1, x.2.hash)

/-- the value of an enumerator of `Parameter::In` -/
def Externs.inHash (E : Externs) (upper : String → String) (k : String) : ℕ :=
  ((E.inEnum upper).find? fun x => x.1 = upper k).elim 0 (·.2)

/-- the plugin object: `_parameters`, and the messages that were sent to the current `_context` -/
structure Plugin where
  values : List ℚ
  sent : List (ℕ × ℚ)

/-- HeavyDPF.cpp:137-155: `setParameterValue` -/
def Externs.set (E : Externs) (upper : String → String) (i : ℕ) (v : ℚ) (P : Plugin) : Plugin :=
  match E.ins[i]? with
  | some x => ⟨P.values.set i v, P.sent ++ [(E.inHash upper x.1, v)]⟩
  | none => P

/-- HeavyDPF.cpp:97-101, 234-238: the loop over all parameters -/
def Externs.resend (E : Externs) (upper : String → String) (P : Plugin) : Plugin :=
  if E.ins.length > 0 then
    (List.range (E.ins.length + E.outs.length)).foldl (fun Q i => E.set upper i (Q.values.getD i 0) Q) P
  else P

/-- HeavyDPF.cpp:84-103: the constructor -/
def Externs.new (E : Externs) (upper : String → String) : Plugin :=
  E.resend upper ⟨(E.ins ++ E.outs).map (·.2.attr.dflt), []⟩

/-- HeavyDPF.cpp:222-242: `sampleRateChanged`; the new context has got no messages yet -/
def Externs.rateChanged (E : Externs) (upper : String → String) (P : Plugin) : Plugin := E.resend upper ⟨P.values, []⟩

/-- HeavyDPF.cpp:157-169: `setOutputParameter`, for a message of the patch that begins with the number `v` -/
def Externs.output (E : Externs) (h : ℕ) (v : ℚ) (P : Plugin) : Plugin :=
  match E.outs.find? fun x => x.2.hash = h with
  | some x => { P with values := P.values.set (E.index x.2) v }
  | none => P

/-- HeavyDPF.cpp:128-135: `getParameterValue` (outside of the array: undefined) -/
def getValue (i : ℕ) (P : Plugin) : Option ℚ := P.values[i]?

/-- HeavyDPF.cpp:112-123, initParameter.cpp: name and range -/
def Externs.init (E : Externs) (i : ℕ) : Option Param := ((E.ins ++ E.outs).find? fun x => E.index x.2 = i).map (·.2)

/-- what the host and the patch do -/
inductive Call
  | set (i : ℕ) (v : ℚ)
  | rate
  | out (hash : ℕ) (v : ℚ)

/-- what the plugin does -/
def Externs.step (E : Externs) (upper : String → String) (P : Plugin) : Call → Plugin
  | .set i v => E.set upper i v P
  | .rate => E.rateChanged upper P
  | .out h v => E.output h v P

/-- the plugin after a history -/
def Externs.run (E : Externs) (upper : String → String) (l : List Call) : Plugin := l.foldl (E.step upper) (E.new upper)

end Verif.Params
