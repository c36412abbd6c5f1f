import Verif.Sig
/-! Generated by `tools/pdsig.py rzero~ 0` from hvcc/interpreters/pd2hv/libs/pd/rzero~.pd (and the library objects in it). -/
namespace Verif.Sig.Rzero
open Verif.Reduce

/-- the objects -/
noncomputable def kind : ℕ → Kind ℝ
  | 0 => .other "inlet"  -- rzero~, object 0: inlet~
  | 1 => .other "inlet"  -- rzero~, object 1: inlet~
  | 2 => .other "outlet"  -- rzero~, object 2: outlet~
  | 3 => .other "__del1~f"  -- rzero~, object 3: pd @hv_obj __del1~f
  | 4 => .binop "*" 0  -- rzero~, object 4: *~
  | 5 => .binop "-" 0  -- rzero~, object 5: -~
  | _ => .other ""

/-- the signal objects that are not operators, with their names and numeric arguments -/
noncomputable def special : List (ℕ × String × List ℝ) := [(3, "__del1~f", [])]

/-- the connections -/
def conns : List Conn := [⟨0, 0, 4, 1, .f⟩, ⟨1, 0, 3, 0, .f⟩, ⟨1, 0, 5, 0, .f⟩, ⟨3, 0, 4, 0, .f⟩, ⟨4, 0, 5, 1, .f⟩, ⟨5, 0, 2, 0, .f⟩]

/-- rzero~.pd -/
noncomputable def patch : Graph ℝ := ofConns (List.range 6) (kind) conns

/-- inlet 0 -/
abbrev in0 : ℕ := 1
/-- inlet 1 -/
abbrev in1 : ℕ := 0
/-- outlet 0 -/
abbrev out0 : ℕ := 2

/-- an order of evaluation -/
def rank : List ℕ := [1, 1, 5, 2, 3, 4]

theorem ranked : ∀ c ∈ conns, c.ty = .f → rank.getD c.src 0 < rank.getD c.dst 0 := by decide +kernel

theorem plain (p : ℕ) : (∀ m, (kind p) ≠ .receive m) ∧ ∀ m, kind p ≠ .varRead m := by unfold kind; split <;> simp

/-- the patch has signals, whatever the other objects do and whatever messages come -/
theorem signals {μ : Type} (W : World ℝ μ) (log : ℕ → List (Sent μ)) : ∃ v, Solves W patch log v :=
  exists_signals _ _ _ (fun p => rank.getD p 0) ranked (plain) (by decide +kernel) W log

section
variable {μ : Type} {W : World ℝ μ} {log : ℕ → List (Sent μ)} {v : ℕ → ℕ → ℕ → ℝ}

/-- rzero~, object 2: outlet~ -/
theorem o0 (t : ℕ) : inSum v (patch.ins 2 0) t = v 5 0 t := by
  simp [patch, ofConns, conns, Conn.into, inSum]

/-- rzero~, object 4: *~ -/
theorem n4 (h : Solves W patch log v) (t : ℕ) : v 4 0 t = v 3 0 t * v 0 0 t := by
  have := h 4 (by simp [patch, ofConns])
  simp [Obeys, patch, ofConns, kind, conns, Conn.into, inSum, operand, hasSignal, World.op, World.fn, irOp, irFn, held_nil] at this
  simpa using this t

/-- rzero~, object 5: -~ -/
theorem n5 (h : Solves W patch log v) (t : ℕ) : v 5 0 t = v 1 0 t - v 4 0 t := by
  have := h 5 (by simp [patch, ofConns])
  simp [Obeys, patch, ofConns, kind, conns, Conn.into, inSum, operand, hasSignal, World.op, World.fn, irOp, irFn, held_nil] at this
  simpa using this t

end

end Verif.Sig.Rzero
