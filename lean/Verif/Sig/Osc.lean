import Verif.Sig
/-! Generated by `tools/pdsig.py osc~ 1 cc` from hvcc/interpreters/pd2hv/libs/pd/osc~.pd (and the library objects in it). -/
namespace Verif.Sig.Osc
open Verif.Reduce

/-- the objects -/
noncomputable def kind (a1 : ℝ) : ℕ → Kind ℝ
  | 0 => .binop "*" 0  -- osc~, object 0: *~
  | 1 => .binop "*" 0  -- osc~, object 1: *~
  | 2 => .binop "*" 0  -- osc~, object 2: *~
  | 3 => .binop "+" 0  -- osc~, object 6: +~
  | 4 => .other "outlet"  -- osc~, object 7: outlet~
  | 5 => .irUn "__abs~f"  -- abs~, object 0: pd @hv_obj __abs~f
  | 6 => .binop "-" 0.5  -- osc~, object 11: -~ 0.5
  | 7 => .binop "*" 6.283185307179586  -- osc~, object 13: *~ 6.283185307179586
  | 8 => .binop "-" 0.25  -- osc~, object 14: -~ 0.25
  | 9 => .other "inlet"  -- osc~, object 15: inlet phase
  | 10 => .other "inlet"  -- osc~, object 16: inlet -~>
  | 11 => .binop "*" 0.007833333333333  -- osc~, object 18: *~ 0.007833333333333
  | 12 => .other "phasor"  -- osc~, object 20: pd @hv_obj phasor \$1
  | 13 => .binop "*" (-0.166666666666667)  -- osc~, object 21: *~ -0.166666666666667
  | 14 => .binop "+" 0  -- osc~, object 22: +~
  | _ => .other ""

/-- the signal objects that are not operators, with their names and numeric arguments -/
noncomputable def special (a1 : ℝ) : List (ℕ × String × List ℝ) := [(12, "phasor", [a1])]

/-- the connections -/
def conns : List Conn := [⟨5, 0, 8, 0, .f⟩, ⟨0, 0, 1, 0, .f⟩, ⟨0, 0, 13, 0, .f⟩, ⟨1, 0, 11, 0, .f⟩, ⟨2, 0, 1, 1, .f⟩, ⟨2, 0, 0, 1, .f⟩, ⟨3, 0, 4, 0, .f⟩, ⟨6, 0, 5, 0, .f⟩, ⟨7, 0, 2, 0, .f⟩, ⟨7, 0, 2, 1, .f⟩, ⟨7, 0, 0, 0, .f⟩, ⟨7, 0, 14, 0, .f⟩, ⟨8, 0, 7, 0, .f⟩, ⟨9, 0, 12, 1, .c⟩, ⟨10, 0, 12, 0, .c⟩, ⟨11, 0, 3, 1, .f⟩, ⟨12, 0, 6, 0, .f⟩, ⟨13, 0, 14, 1, .f⟩, ⟨14, 0, 3, 0, .f⟩]

/-- osc~.pd -/
noncomputable def patch (a1 : ℝ) : Graph ℝ := ofConns (List.range 15) (kind a1) conns

/-- inlet 0 -/
abbrev in0 : ℕ := 10
/-- inlet 1 -/
abbrev in1 : ℕ := 9
/-- outlet 0 -/
abbrev out0 : ℕ := 4

/-- an order of evaluation -/
def rank : List ℕ := [7, 8, 6, 10, 11, 3, 2, 5, 4, 1, 1, 9, 1, 8, 9]

theorem ranked : ∀ c ∈ conns, c.ty = .f → rank.getD c.src 0 < rank.getD c.dst 0 := by decide +kernel

theorem plain (a1 : ℝ) (p : ℕ) : (∀ m, (kind a1 p) ≠ .receive m) ∧ ∀ m, kind a1 p ≠ .varRead m := by unfold kind; split <;> simp

/-- the patch has signals, whatever the other objects do and whatever messages come -/
theorem signals (a1 : ℝ) {μ : Type} (W : World ℝ μ) (log : ℕ → List (Sent μ)) : ∃ v, Solves W (patch a1) log v :=
  exists_signals _ _ _ (fun p => rank.getD p 0) ranked (plain a1) (by decide +kernel) W log

section
variable {μ : Type} {W : World ℝ μ} {log : ℕ → List (Sent μ)} {v : ℕ → ℕ → ℕ → ℝ} {a1 : ℝ}

/-- osc~, object 0: *~ -/
theorem n0 (h : Solves W (patch a1) log v) (t : ℕ) : v 0 0 t = v 7 0 t * v 2 0 t := by
  have := h 0 (by simp [patch, ofConns])
  simp [Obeys, patch, ofConns, kind, conns, Conn.into, inSum, operand, hasSignal, World.op, World.fn, irOp, irFn, held_nil] at this
  simpa using this t

/-- osc~, object 1: *~ -/
theorem n1 (h : Solves W (patch a1) log v) (t : ℕ) : v 1 0 t = v 0 0 t * v 2 0 t := by
  have := h 1 (by simp [patch, ofConns])
  simp [Obeys, patch, ofConns, kind, conns, Conn.into, inSum, operand, hasSignal, World.op, World.fn, irOp, irFn, held_nil] at this
  simpa using this t

/-- osc~, object 2: *~ -/
theorem n2 (h : Solves W (patch a1) log v) (t : ℕ) : v 2 0 t = v 7 0 t * v 7 0 t := by
  have := h 2 (by simp [patch, ofConns])
  simp [Obeys, patch, ofConns, kind, conns, Conn.into, inSum, operand, hasSignal, World.op, World.fn, irOp, irFn, held_nil] at this
  simpa using this t

/-- osc~, object 6: +~ -/
theorem n3 (h : Solves W (patch a1) log v) (t : ℕ) : v 3 0 t = v 14 0 t + v 11 0 t := by
  have := h 3 (by simp [patch, ofConns])
  simp [Obeys, patch, ofConns, kind, conns, Conn.into, inSum, operand, hasSignal, World.op, World.fn, irOp, irFn, held_nil] at this
  simpa using this t

/-- osc~, object 7: outlet~ -/
theorem o0 (t : ℕ) : inSum v ((patch a1).ins 4 0) t = v 3 0 t := by
  simp [patch, ofConns, conns, Conn.into, inSum]

/-- abs~, object 0: pd @hv_obj __abs~f -/
theorem n5 (h : Solves W (patch a1) log v) (t : ℕ) : v 5 0 t = W.un "abs" (v 6 0 t) := by
  have := h 5 (by simp [patch, ofConns])
  simp [Obeys, patch, ofConns, kind, conns, Conn.into, inSum, operand, hasSignal, World.op, World.fn, irOp, irFn, held_nil] at this
  simpa using this t

/-- osc~, object 11: -~ 0.5 -/
theorem n6 (h : Solves W (patch a1) log v) (t : ℕ) : v 6 0 t = v 12 0 t - 0.5 := by
  have := h 6 (by simp [patch, ofConns])
  simp [Obeys, patch, ofConns, kind, conns, Conn.into, inSum, operand, hasSignal, World.op, World.fn, irOp, irFn, held_nil] at this
  simpa using this t

/-- osc~, object 13: *~ 6.283185307179586 -/
theorem n7 (h : Solves W (patch a1) log v) (t : ℕ) : v 7 0 t = v 8 0 t * 6.283185307179586 := by
  have := h 7 (by simp [patch, ofConns])
  simp [Obeys, patch, ofConns, kind, conns, Conn.into, inSum, operand, hasSignal, World.op, World.fn, irOp, irFn, held_nil] at this
  simpa using this t

/-- osc~, object 14: -~ 0.25 -/
theorem n8 (h : Solves W (patch a1) log v) (t : ℕ) : v 8 0 t = v 5 0 t - 0.25 := by
  have := h 8 (by simp [patch, ofConns])
  simp [Obeys, patch, ofConns, kind, conns, Conn.into, inSum, operand, hasSignal, World.op, World.fn, irOp, irFn, held_nil] at this
  simpa using this t

/-- osc~, object 18: *~ 0.007833333333333 -/
theorem n11 (h : Solves W (patch a1) log v) (t : ℕ) : v 11 0 t = v 1 0 t * 0.007833333333333 := by
  have := h 11 (by simp [patch, ofConns])
  simp [Obeys, patch, ofConns, kind, conns, Conn.into, inSum, operand, hasSignal, World.op, World.fn, irOp, irFn, held_nil] at this
  simpa using this t

/-- osc~, object 21: *~ -0.166666666666667 -/
theorem n13 (h : Solves W (patch a1) log v) (t : ℕ) : v 13 0 t = v 0 0 t * (-0.166666666666667) := by
  have := h 13 (by simp [patch, ofConns])
  simp [Obeys, patch, ofConns, kind, conns, Conn.into, inSum, operand, hasSignal, World.op, World.fn, irOp, irFn, held_nil] at this
  simpa using this t

/-- osc~, object 22: +~ -/
theorem n14 (h : Solves W (patch a1) log v) (t : ℕ) : v 14 0 t = v 7 0 t + v 13 0 t := by
  have := h 14 (by simp [patch, ofConns])
  simp [Obeys, patch, ofConns, kind, conns, Conn.into, inSum, operand, hasSignal, World.op, World.fn, irOp, irFn, held_nil] at this
  simpa using this t

end

end Verif.Sig.Osc
