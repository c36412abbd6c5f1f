import Verif.Sig
/-! Generated by `tools/pdsig.py rpole~ 0` from hvcc/interpreters/pd2hv/libs/pd/rpole~.pd (and the library objects in it). -/
namespace Verif.Sig.Rpole
open Verif.Reduce

/-- the objects -/
noncomputable def kind : ℕ → Kind ℝ
  | 0 => .other "inlet"  -- rpole~, object 0: inlet~
  | 1 => .other "inlet"  -- rpole~, object 1: inlet~
  | 2 => .other "outlet"  -- rpole~, object 2: outlet~
  | 3 => .other "__rpole~f"  -- rpole~, object 3: pd @hv_obj __rpole~f
  | 4 => .binop "*" (-1)  -- rpole~, object 4: *~ -1
  | _ => .other ""

/-- the signal objects that are not operators, with their names and numeric arguments -/
noncomputable def special : List (ℕ × String × List ℝ) := [(3, "__rpole~f", [])]

/-- the connections -/
def conns : List Conn := [⟨0, 0, 4, 0, .f⟩, ⟨1, 0, 3, 0, .f⟩, ⟨3, 0, 2, 0, .f⟩, ⟨4, 0, 3, 1, .f⟩]

/-- rpole~.pd -/
noncomputable def patch : Graph ℝ := ofConns (List.range 5) (kind) conns

/-- inlet 0 -/
abbrev in0 : ℕ := 1
/-- inlet 1 -/
abbrev in1 : ℕ := 0
/-- outlet 0 -/
abbrev out0 : ℕ := 2

/-- an order of evaluation -/
def rank : List ℕ := [1, 1, 4, 3, 2]

theorem ranked : ∀ c ∈ conns, c.ty = .f → rank.getD c.src 0 < rank.getD c.dst 0 := by decide +kernel

theorem plain (p : ℕ) : (∀ m, (kind p) ≠ .receive m) ∧ ∀ m, kind p ≠ .varRead m := by unfold kind; split <;> simp

/-- the patch has signals, whatever the other objects do and whatever messages come -/
theorem signals {μ : Type} (W : World ℝ μ) (log : ℕ → List (Sent μ)) : ∃ v, Solves W patch log v :=
  exists_signals _ _ _ (fun p => rank.getD p 0) ranked (plain) (by decide +kernel) W log

section
variable {μ : Type} {W : World ℝ μ} {log : ℕ → List (Sent μ)} {v : ℕ → ℕ → ℕ → ℝ}

/-- rpole~, object 2: outlet~ -/
theorem o0 (t : ℕ) : inSum v (patch.ins 2 0) t = v 3 0 t := by
  simp [patch, ofConns, conns, Conn.into, inSum]

/-- rpole~, object 4: *~ -1 -/
theorem n4 (h : Solves W patch log v) (t : ℕ) : v 4 0 t = v 0 0 t * (-1) := by
  have := h 4 (by simp [patch, ofConns])
  simp [Obeys, patch, ofConns, kind, conns, Conn.into, inSum, operand, hasSignal, World.op, World.fn, irOp, irFn, held_nil] at this
  simpa using this t

end

end Verif.Sig.Rpole
