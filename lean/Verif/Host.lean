import Verif.Interleave
/-!
How hosts call the generated code: `process` of hvcc/generators/ir2c/templates/Heavy_NAME.cpp with the buffers of the host in one memory,
and the callers in hvcc/generators/c2pdext/templates/pd_external.c, c2owl/templates/HeavyOwl.hpp,
c2wwise/templates/SoundEnginePlugin/{{name}}{{plugin_type}}.cpp, c2dpf/templates/HeavyDPF.cpp, c2js/template/hv_worklet.js.
-/
namespace Verif.Host
open Verif.Simd (V)
open Verif.Interleave (Buf load store loop)

variable {σ α : Type} {N ci co : ℕ}

/-- the code of a patch with `ci` inputs and `co` outputs; what it computes (C30, C31, C45) is a parameter.  `call`: lines 178-186, the
messages of the queue from the host and the bang of `[bang~]`; `vector`: one pass of the loop of lines 207-246 between the loads and the
stores, from the time `nextBlock` of line 210 and the inputs to the outputs -/
structure Prog (σ α : Type) (N ci co : ℕ) where
  call : σ → σ
  vector : ℕ → σ → (Fin ci → V N α) → σ × (Fin co → V N α)

/-- the stores of lines 237-241, in this order -/
def stores (op : Fin co → ℕ) (O : Fin co → V N α) (m : Buf α) : Buf α := (List.finRange co).foldl (fun m j => store m (op j) (O j)) m

/-- `Heavy_NAME::process`, lines 178-252: `inputBuffers[i]` is the address `ip i`, `outputBuffers[j]` the address `op j`; `N` is a power of
two, so that `n & ~HV_N_SIMD_MASK` is `n / N * N`; `blockStartTimestamp` is not wrapped here (C08) -/
def process (P : Prog σ α N ci co) (ip : Fin ci → ℕ) (op : Fin co → ℕ) (n : ℕ) (s : σ) (t : ℕ) (m : Buf α) : σ × ℕ × Buf α :=
  let r := loop (fun k (p : σ × Buf α) =>
    let v := P.vector (t + (k + 1) * N) p.1 fun i => load N p.2 (ip i + k * N)
    (v.1, stores (fun j => op j + k * N) v.2 p.2)) (n / N) (P.call s, m)
  (r.1, t + n / N * N, r.2)

/-- `processInline`, lines 269-298, after its assertion: channel `i` begins at `i * n` -/
def processInline (P : Prog σ α N ci co) (inp out n : ℕ) (s : σ) (t : ℕ) (m : Buf α) : σ × ℕ × Buf α :=
  process P (fun i => inp + i * n) (fun j => out + j * n) n s t m

/-! ### callers -/

/-- pd_external.c:120-130, `dsp_add(perform, n, x, ...)`: the words behind the function pointer, given the object, the signals `sp` of the
inlets and outlets (Pd has at least one signal inlet) and the block size -/
def pdWords {ω : Type} (ci co : ℕ) (x : ω) (sp : ℕ → ω) (n : ω) : List ω :=
  [x] ++ (List.range ci).map sp ++ (List.range co).map (fun j => sp (max ci 1 + j)) ++ [n]

/-- pd_external.c:92-117, `perform(w)`: `w[0]` is the function pointer; the object, the input channels, the output channels, `n`, and how
far the pointer `w` goes on -/
def pdPerform {ω : Type} (ci co : ℕ) (w : ℕ → Option ω) : Option ω × (ℕ → Option ω) × (ℕ → Option ω) × Option ω × ℕ :=
  (w 1, fun i => w (i + 2), fun j => w (ci + j + 2), w (ci + co + 2), ci + co + 3)

/-- Wwise `Execute` of an effect, lines 263-277: a bus with `ch` channels of `n` frames at the address `b`; patches with two inputs or two
outputs on a bus with one channel get the same buffer twice -/
def wwiseExecute (P : Prog σ α N ci co) (ch b n : ℕ) (s : σ) (t : ℕ) (m : Buf α) : σ × ℕ × Buf α :=
  if ch = 1 ∧ (ci = 2 ∨ co = 2) then process P (fun _ => b) (fun _ => b) n s t m else processInline P b b n s t m

/-- HeavyOwl.hpp:244-245: the left and the right buffer are inputs and outputs (the patch has at most two of each) -/
def owlProcess (P : Prog σ α N ci co) (left right n : ℕ) (s : σ) (t : ℕ) (m : Buf α) : σ × ℕ × Buf α :=
  process P (fun i => if i.val = 0 then left else right) (fun j => if j.val = 0 then left else right) n s t m

/-! ### the worklet of the JS target -/

/-- what the browser passes to `process`: no connection (`inputs[0].length = 0`), or channels, of which some may be missing -/
inductive WebIn (α : Type)
  | none
  | chans (c : ℕ → Option (Fin 128 → α))

/-- hv_worklet.js:57-72: the input buffer before the call of `_hv_processInline`; `inputBuffer.set(0)` (line 68) copies the elements of the
number 0, which has none -/
def webFill (ci : ℕ) (b : Buf α) : WebIn α → Buf α
  | .none => b
  | .chans c => loop (fun i b => match c i with
      | some x => fun a => if h : i * 128 ≤ a ∧ a < i * 128 + 128 then x ⟨a - i * 128, by omega⟩ else b a
      | none => b) ci b

/-- the input buffer at every call -/
def webInputs (ci : ℕ) (b : Buf α) (ins : ℕ → WebIn α) : ℕ → Buf α
  | 0 => webFill ci b (ins 0)
  | k + 1 => webFill ci (webInputs ci b ins k) (ins (k + 1))

end Verif.Host
