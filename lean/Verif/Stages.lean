/-
The stages of one run of `hvcc` and its exit status.
Models `hvcc/compiler.py` 45-82 and 211-380 and `hvcc/main.py` 103-153.
-/

namespace Verif.Stages

/-- `CompilerNotif` (`hvcc/types/compiler.py` 22-26), without its warnings. -/
structure Resp where
  hasError : Bool
  errors : List String
  exc : Option String
deriving DecidableEq, Repr

/-- `CompilerResults` (`hvcc/types/compiler.py` 42-43): a dictionary, in the order of insertion. -/
abbrev Results := List (String × Resp)

/-- Everything the stages answer in one run: the error of the tests of the arguments
(`hvcc/compiler.py` 226-245), the answers of the stages, the conflicts of exposed names
(`hvcc/compiler.py` 62-76, 130-160), the answers of the generators, and those of the modules for
other generators (`load_ext_generator`, `hvcc/compiler.py` 197-209; `none`: there is no such
module or no generator in it).  Simplified: an exception nobody catches ends the run and is not
modelled. -/
structure World where
  inputError : Option String
  pd2hv : Resp
  pd2gui : Resp
  hv2ir : Resp
  conflicts : List String
  ir2c : Resp
  gen : String → Resp
  ext : String → Option Resp

/-- `results.root[k] = r`, an assignment in a dictionary (`hvcc/compiler.py` 251-378). -/
def put (rs : Results) (p : String × Resp) : Results :=
  if p.1 ∈ rs.map (·.1) then rs.map (fun q => if q.1 = p.1 then p else q) else rs ++ [p]

/-- `add_error`, `hvcc/compiler.py` 45-59. -/
def addError (rs : Results) (e : String) : Results :=
  if "hvcc" ∈ rs.map (·.1) then
    rs.map (fun q => if q.1 = "hvcc" then (q.1, { q.2 with errors := q.2.errors ++ [e] }) else q)
  else rs ++ [("hvcc", { hasError := true, errors := [e], exc := none })]

/-- The generators and the names of their answers, `hvcc/compiler.py` 332-370. -/
def builtin : List (String × String) :=
  [("js", "c2js"), ("daisy", "c2daisy"), ("dpf", "c2dpf"), ("owl", "c2owl"),
   ("pdext", "c2pdext"), ("unity", "c2unity"), ("wwise", "c2wwise"), ("fmod", "c2fmod")]

/-- The generators that run, `hvcc/compiler.py` 332-370.  Simplified: `gens` is the list after
`x.lower()` (`hvcc/compiler.py` 247). -/
def runBuiltin (w : World) (gens : List String) : Results :=
  (builtin.filter (fun b => b.1 ∈ gens)).map (fun b => (b.2, w.gen b.1))

/-- The other generators that run, `hvcc/compiler.py` 372-378. -/
def runExt (w : World) (exts : List String) : Results :=
  exts.filterMap (fun x => (w.ext x).map (fun r => (x, r)))

/-- `compile_dataflow`, `hvcc/compiler.py` 211-380.  Simplified: the answer `ir2c_perf`
(`hvcc/compiler.py` 308-314) is one without errors, as the code makes it. -/
def compile (w : World) (gens exts : List String) : Results :=
  match w.inputError with
  | some e => addError [] e
  | none =>
    let rs := put (put [] ("pd2hv", w.pd2hv)) ("pd2gui", w.pd2gui)
    if rs.head?.any (fun p => p.2.hasError) then rs
    else
      let rs := put rs ("hv2ir", w.hv2ir)
      if w.hv2ir.hasError then rs
      else
        let rs := w.conflicts.foldl addError rs
        let rs := put rs ("ir2c", w.ir2c)
        if w.ir2c.hasError then rs
        else
          let rs := put rs ("ir2c_perf", { hasError := false, errors := [], exc := none })
          (runBuiltin w gens ++ runExt w exts).foldl put rs

/-- The count of one answer, `hvcc/main.py` 119-131. -/
def countOne (r : Resp) : Nat :=
  if r.hasError then
    r.errors.length + (if r.errors.length = 0 ∧ r.exc.isSome then 1 else 0)
  else 0

/-- The exit status of `main`, `hvcc/main.py` 118-153: 1 iff the count is not 0. -/
def exitStatus (rs : Results) : Nat :=
  if (rs.map (fun p => countOne p.2)).sum ≠ 0 then 1 else 0

end Verif.Stages
