import Verif.Simd
import Verif.SchedulerProofs
/-!
`HvSignalSample.c` (the object behind `[snapshot~]`), `HvSignalVar.{h,c}` (the object behind `[sig~]` and `[line]`-like lists)
and the code `SignalVar.py` generates for constants.
-/
namespace Verif.Snapshot
open Verif.Simd (V)

variable {α : Type}

/-! ### `__sample~f` -/

/-- `SignalSample`, HvSignalSample.h:27-29: the timestamp at which to take a sample -/
structure Sample where
  i : BitVec 32

/-- `__HV_SAMPLE_NULL`, HvSignalSample.c:19, compared with an unsigned number (line 32) -/
def null : BitVec 32 := BitVec.ofInt 32 (-1)

/-- `sSample_init`, HvSignalSample.c:21-24 -/
def Sample.init : Sample := ⟨null⟩

/-- `sSample_onMessage`, HvSignalSample.c:26-28: any message, on any inlet, with timestamp `ts` -/
def Sample.onMessage (_o : Sample) (ts : BitVec 32) : Sample := ⟨ts⟩

/-- `__hv_sample_f`, HvSignalSample.c:30-50, for vectors of `N` samples: the new state, and the message it schedules
(timestamp and value).  The scalar build takes the only sample. -/
def Sample.process {N : Nat} [NeZero N] (o : Sample) (bIn : V N α) : Sample × Option (BitVec 32 × α) :=
  if o.i ≠ null then
    let out := bIn (Fin.ofNat N (o.i &&& BitVec.ofNat 32 (N - 1)).toNat)
    let ts := (o.i + BitVec.ofNat 32 N) &&& ~~~(BitVec.ofNat 32 (N - 1))
    (⟨null⟩, some (ts, out))
  else (o, none)

/-- One vector of the process loop (Heavy_NAME.cpp:210-240): the messages due in it reach the object, in the order of
their timestamps `bangs`, then the signal functions run. -/
def Sample.vector {N : Nat} [NeZero N] (o : Sample) (bangs : List (BitVec 32)) (bIn : V N α) :
    Sample × Option (BitVec 32 × α) :=
  (bangs.foldl Sample.onMessage o).process bIn

/-- the messages scheduled in vectors `k`, `k+1`, …, for the signal `x`; one list of bangs for each vector -/
def Sample.run {N : Nat} [NeZero N] (x : Nat → α) : Nat → Sample → List (List (BitVec 32)) → List (Option (BitVec 32 × α))
  | _, _, [] => []
  | k, o, bs :: rest =>
    let r := o.vector bs (Verif.Simd.block N x k)
    r.2 :: Sample.run (N := N) x (k + 1) r.1 rest

/-! ### `__var~f` -/

/-- the builds, HvUtils.h:56-122 -/
inductive Build | avx | sse | neon | none
deriving DecidableEq

/-- `HV_N_SIMD` -/
abbrev Build.lanes : Build → Nat
  | .avx => 8
  | .sse => 4
  | .neon => 4
  | .none => 1

/-- `_mm_set_ps`: the last argument is lane 0; `_mm_setr_ps`: the first one is -/
def set4 (e3 e2 e1 e0 : α) : V 4 α := ![e0, e1, e2, e3]
def setr4 (e0 e1 e2 e3 : α) : V 4 α := ![e0, e1, e2, e3]
def set8 (e7 e6 e5 e4 e3 e2 e1 e0 : α) : V 8 α := ![e0, e1, e2, e3, e4, e5, e6, e7]
def setr8 (e0 e1 e2 e3 e4 e5 e6 e7 : α) : V 8 α := ![e0, e1, e2, e3, e4, e5, e6, e7]

/-- `sVarf_update`, HvSignalVar.c:21-35 -/
def varUpdate [Ring α] : (b : Build) → (k step : α) → (reverse : Bool) → V b.lanes α
  | .avx, k, step, true =>
    setr8 (k+7*step) (k+6*step) (k+5*step) (k+4*step) (k+3*step) (k+2*step) (k+step) k
  | .avx, k, step, false =>
    set8 (k+7*step) (k+6*step) (k+5*step) (k+4*step) (k+3*step) (k+2*step) (k+step) k
  | .sse, k, step, true => setr4 (k+3*step) (k+2*step) (k+step) k
  | .sse, k, step, false => set4 (k+3*step) (k+2*step) (k+step) k
  | .neon, k, step, true => ![3*step+k, 2*step+k, step+k, k]
  | .neon, k, step, false => ![k, step+k, 2*step+k, 3*step+k]
  | .none, k, _, _ => fun _ => k

/-- an element of a message: a number, or a bang or symbol -/
inductive Elem (α : Type) | float (x : α) | other

/-- `sVarf_onMessage`, HvSignalVar.c:42-46 -/
def varOnMessage [Ring α] (b : Build) (v : V b.lanes α) (m : List (Elem α)) : V b.lanes α :=
  match (m[0]? : Option (Elem α)) with
  | some (.float k) =>
    let step := match (m[1]? : Option (Elem α)) with
      | some (.float s) => s
      | _ => 0
    varUpdate b k step (m.length == 3)
  | _ => v

/-- the variable after a history of messages; `sVarf_init`, HvSignalVar.c:37-40 -/
def varAfter [Ring α] (b : Build) (k step : α) (reverse : Bool) (ms : List (List (Elem α))) : V b.lanes α :=
  ms.foldl (varOnMessage b) (varUpdate b k step reverse)

/-! ### `__var_k~f` -/

/-- the macros `__hv_var_k_f` and `__hv_var_k_f_r`, HvSignalVar.h:78-97; `c` are their eight numbers -/
def varKMacro : (b : Build) → (reverse : Bool) → (c : Fin 8 → α) → V b.lanes α
  | .avx, false, c => set8 (c 7) (c 6) (c 5) (c 4) (c 3) (c 2) (c 1) (c 0)
  | .avx, true, c => set8 (c 0) (c 1) (c 2) (c 3) (c 4) (c 5) (c 6) (c 7)
  | .sse, false, c => set4 (c 3) (c 2) (c 1) (c 0)
  | .sse, true, c => set4 (c 0) (c 1) (c 2) (c 3)
  | .neon, false, c => ![c 0, c 1, c 2, c 3]
  | .neon, true, c => ![c 3, c 2, c 1, c 0]
  | .none, _, c => fun _ => c 0

/-- the call `SignalVar.get_C_process` generates for `__var_k~f`, SignalVar.py:92-105 -/
def varKProcess [Ring α] [DecidableEq α] (b : Build) (k step : α) (reverse : Bool) : V b.lanes α :=
  if k = 0 ∧ step = 0 then Verif.Simd.zero
  else varKMacro b reverse (fun i => k + (i.val : α) * step)

end Verif.Snapshot
