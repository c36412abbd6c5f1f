import Verif.Sig
/-! Generated by `tools/pdsig.py cpole~ 0` from hvcc/interpreters/pd2hv/libs/pd/cpole~.pd (and the library objects in it). -/
namespace Verif.Sig.Cpole
open Verif.Reduce

/-- the objects -/
noncomputable def kind : ℕ → Kind ℝ
  | 0 => .other "inlet"  -- cpole~, object 0: inlet~
  | 1 => .other "inlet"  -- cpole~, object 1: inlet~
  | 2 => .other "outlet"  -- cpole~, object 2: outlet~
  | 3 => .binop "*" (-1)  -- cpole~, object 3: *~ -1
  | 4 => .other "inlet"  -- cpole~, object 4: inlet~
  | 5 => .other "inlet"  -- cpole~, object 5: inlet~
  | 6 => .other "__cpole~f"  -- cpole~, object 6: pd @hv_obj __cpole~f
  | 7 => .other "outlet"  -- cpole~, object 7: outlet~
  | 8 => .binop "*" (-1)  -- cpole~, object 8: *~ -1
  | _ => .other ""

/-- the signal objects that are not operators, with their names and numeric arguments -/
noncomputable def special : List (ℕ × String × List ℝ) := [(6, "__cpole~f", [])]

/-- the connections -/
def conns : List Conn := [⟨0, 0, 6, 1, .f⟩, ⟨1, 0, 6, 0, .f⟩, ⟨3, 0, 6, 2, .f⟩, ⟨4, 0, 8, 0, .f⟩, ⟨5, 0, 3, 0, .f⟩, ⟨6, 0, 7, 0, .f⟩, ⟨6, 1, 2, 0, .f⟩, ⟨8, 0, 6, 3, .f⟩]

/-- cpole~.pd -/
noncomputable def patch : Graph ℝ := ofConns (List.range 9) (kind) conns

/-- inlet 0 -/
abbrev in0 : ℕ := 1
/-- inlet 1 -/
abbrev in1 : ℕ := 0
/-- inlet 2 -/
abbrev in2 : ℕ := 5
/-- inlet 3 -/
abbrev in3 : ℕ := 4
/-- outlet 0 -/
abbrev out0 : ℕ := 7
/-- outlet 1 -/
abbrev out1 : ℕ := 2

/-- an order of evaluation -/
def rank : List ℕ := [1, 1, 4, 2, 1, 1, 3, 4, 2]

theorem ranked : ∀ c ∈ conns, c.ty = .f → rank.getD c.src 0 < rank.getD c.dst 0 := by decide +kernel

theorem plain (p : ℕ) : (∀ m, (kind p) ≠ .receive m) ∧ ∀ m, kind p ≠ .varRead m := by unfold kind; split <;> simp

/-- the patch has signals, whatever the other objects do and whatever messages come -/
theorem signals {μ : Type} (W : World ℝ μ) (log : ℕ → List (Sent μ)) : ∃ v, Solves W patch log v :=
  exists_signals _ _ _ (fun p => rank.getD p 0) ranked (plain) (by decide +kernel) W log

section
variable {μ : Type} {W : World ℝ μ} {log : ℕ → List (Sent μ)} {v : ℕ → ℕ → ℕ → ℝ}

/-- cpole~, object 2: outlet~ -/
theorem o1 (t : ℕ) : inSum v (patch.ins 2 0) t = v 6 1 t := by
  simp [patch, ofConns, conns, Conn.into, inSum]

/-- cpole~, object 3: *~ -1 -/
theorem n3 (h : Solves W patch log v) (t : ℕ) : v 3 0 t = v 5 0 t * (-1) := by
  have := h 3 (by simp [patch, ofConns])
  simp [Obeys, patch, ofConns, kind, conns, Conn.into, inSum, operand, hasSignal, World.op, World.fn, irOp, irFn, held_nil] at this
  simpa using this t

/-- cpole~, object 7: outlet~ -/
theorem o0 (t : ℕ) : inSum v (patch.ins 7 0) t = v 6 0 t := by
  simp [patch, ofConns, conns, Conn.into, inSum]

/-- cpole~, object 8: *~ -1 -/
theorem n8 (h : Solves W patch log v) (t : ℕ) : v 8 0 t = v 4 0 t * (-1) := by
  have := h 8 (by simp [patch, ofConns])
  simp [Obeys, patch, ofConns, kind, conns, Conn.into, inSum, operand, hasSignal, World.op, World.fn, irOp, irFn, held_nil] at this
  simpa using this t

end

end Verif.Sig.Cpole
