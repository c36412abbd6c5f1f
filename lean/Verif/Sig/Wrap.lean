import Verif.Sig
/-! Generated by `tools/pdsig.py wrap~ 0` from hvcc/interpreters/pd2hv/libs/pd/wrap~.pd (and the library objects in it). -/
namespace Verif.Sig.Wrap
open Verif.Reduce

/-- the objects -/
noncomputable def kind : ℕ → Kind ℝ
  | 0 => .other "inlet"  -- wrap~, object 0: inlet~
  | 1 => .irUn "__floor~f"  -- wrap~, object 1: pd @hv_obj __floor~f
  | 2 => .binop "-" 0  -- wrap~, object 2: -~
  | 3 => .other "outlet"  -- wrap~, object 3: outlet~
  | _ => .other ""

/-- the signal objects that are not operators, with their names and numeric arguments -/
noncomputable def special : List (ℕ × String × List ℝ) := []

/-- the connections -/
def conns : List Conn := [⟨0, 0, 1, 0, .f⟩, ⟨0, 0, 2, 0, .f⟩, ⟨1, 0, 2, 1, .f⟩, ⟨2, 0, 3, 0, .f⟩]

/-- wrap~.pd -/
noncomputable def patch : Graph ℝ := ofConns (List.range 4) (kind) conns

/-- inlet 0 -/
abbrev in0 : ℕ := 0
/-- outlet 0 -/
abbrev out0 : ℕ := 3

/-- an order of evaluation -/
def rank : List ℕ := [1, 2, 3, 4]

theorem ranked : ∀ c ∈ conns, c.ty = .f → rank.getD c.src 0 < rank.getD c.dst 0 := by decide +kernel

theorem plain (p : ℕ) : (∀ m, (kind p) ≠ .receive m) ∧ ∀ m, kind p ≠ .varRead m := by unfold kind; split <;> simp

/-- the patch has signals, whatever the other objects do and whatever messages come -/
theorem signals {μ : Type} (W : World ℝ μ) (log : ℕ → List (Sent μ)) : ∃ v, Solves W patch log v :=
  exists_signals _ _ _ (fun p => rank.getD p 0) ranked (plain) (by decide +kernel) W log

section
variable {μ : Type} {W : World ℝ μ} {log : ℕ → List (Sent μ)} {v : ℕ → ℕ → ℕ → ℝ}

/-- wrap~, object 1: pd @hv_obj __floor~f -/
theorem n1 (h : Solves W patch log v) (t : ℕ) : v 1 0 t = W.un "floor" (v 0 0 t) := by
  have := h 1 (by simp [patch, ofConns])
  simp [Obeys, patch, ofConns, kind, conns, Conn.into, inSum, operand, hasSignal, World.op, World.fn, irOp, irFn, held_nil] at this
  simpa using this t

/-- wrap~, object 2: -~ -/
theorem n2 (h : Solves W patch log v) (t : ℕ) : v 2 0 t = v 0 0 t - v 1 0 t := by
  have := h 2 (by simp [patch, ofConns])
  simp [Obeys, patch, ofConns, kind, conns, Conn.into, inSum, operand, hasSignal, World.op, World.fn, irOp, irFn, held_nil] at this
  simpa using this t

/-- wrap~, object 3: outlet~ -/
theorem o0 (t : ℕ) : inSum v (patch.ins 3 0) t = v 2 0 t := by
  simp [patch, ofConns, conns, Conn.into, inSum]

end

end Verif.Sig.Wrap
