import Verif.Sig
/-! Generated by `tools/pdsig.py cos~ 0` from hvcc/interpreters/pd2hv/libs/pd/cos~.pd (and the library objects in it). -/
namespace Verif.Sig.Cos
open Verif.Reduce

/-- the objects -/
noncomputable def kind : ℕ → Kind ℝ
  | 0 => .binop "*" 6.28319  -- cos~, object 0: *~ 6.28319
  | 1 => .other "inlet"  -- cos~, object 1: inlet~
  | 2 => .other "outlet"  -- cos~, object 2: outlet~
  | 3 => .binop "-" 0.25  -- cos~, object 3: -~ 0.25
  | 4 => .binop "-" 0.5  -- cos~, object 4: -~ 0.5
  | 5 => .irUn "__abs~f"  -- abs~, object 0: pd @hv_obj __abs~f
  | 6 => .irUn "__floor~f"  -- wrap~, object 1: pd @hv_obj __floor~f
  | 7 => .binop "-" 0  -- wrap~, object 2: -~
  | 8 => .binop "*" 0  -- cos~, object 7: *~
  | 9 => .binop "*" 0  -- cos~, object 8: *~
  | 10 => .binop "*" 0  -- cos~, object 9: *~
  | 11 => .binop "+" 0  -- cos~, object 13: +~
  | 12 => .binop "-" 0  -- cos~, object 14: -~
  | 13 => .binop "*" 0.166667  -- cos~, object 15: *~ 0.166667
  | 14 => .binop "*" 0.00833333  -- cos~, object 16: *~ 0.00833333
  | 15 => .binop "*" 0  -- cos~, object 17: *~
  | 16 => .binop "*" 0.000198413  -- cos~, object 18: *~ 0.000198413
  | 17 => .binop "-" 0  -- cos~, object 19: -~
  | 18 => .binop "*" 0  -- cos~, object 20: *~
  | 19 => .binop "+" 0  -- cos~, object 21: +~
  | 20 => .binop "*" 0.00000275573  -- cos~, object 22: *~ 2.75573e-06
  | _ => .other ""

/-- the signal objects that are not operators, with their names and numeric arguments -/
noncomputable def special : List (ℕ × String × List ℝ) := []

/-- the connections -/
def conns : List Conn := [⟨5, 0, 3, 0, .f⟩, ⟨6, 0, 7, 1, .f⟩, ⟨7, 0, 4, 0, .f⟩, ⟨0, 0, 12, 0, .f⟩, ⟨0, 0, 8, 0, .f⟩, ⟨0, 0, 10, 0, .f⟩, ⟨0, 0, 10, 1, .f⟩, ⟨1, 0, 6, 0, .f⟩, ⟨1, 0, 7, 0, .f⟩, ⟨3, 0, 0, 0, .f⟩, ⟨4, 0, 5, 0, .f⟩, ⟨8, 0, 13, 0, .f⟩, ⟨8, 0, 9, 0, .f⟩, ⟨9, 0, 14, 0, .f⟩, ⟨9, 0, 15, 0, .f⟩, ⟨10, 0, 9, 1, .f⟩, ⟨10, 0, 8, 1, .f⟩, ⟨10, 0, 15, 1, .f⟩, ⟨10, 0, 18, 1, .f⟩, ⟨11, 0, 17, 0, .f⟩, ⟨12, 0, 11, 0, .f⟩, ⟨13, 0, 12, 1, .f⟩, ⟨14, 0, 11, 1, .f⟩, ⟨15, 0, 16, 0, .f⟩, ⟨15, 0, 18, 0, .f⟩, ⟨16, 0, 17, 1, .f⟩, ⟨17, 0, 19, 0, .f⟩, ⟨18, 0, 20, 0, .f⟩, ⟨19, 0, 2, 0, .f⟩, ⟨20, 0, 19, 1, .f⟩]

/-- cos~.pd -/
noncomputable def patch : Graph ℝ := ofConns (List.range 21) (kind) conns

/-- inlet 0 -/
abbrev in0 : ℕ := 1
/-- outlet 0 -/
abbrev out0 : ℕ := 2

/-- an order of evaluation -/
def rank : List ℕ := [7, 1, 15, 6, 4, 5, 2, 3, 9, 10, 8, 12, 11, 10, 11, 11, 12, 13, 12, 14, 13]

theorem ranked : ∀ c ∈ conns, c.ty = .f → rank.getD c.src 0 < rank.getD c.dst 0 := by decide +kernel

theorem plain (p : ℕ) : (∀ m, (kind p) ≠ .receive m) ∧ ∀ m, kind p ≠ .varRead m := by unfold kind; split <;> simp

/-- the patch has signals, whatever the other objects do and whatever messages come -/
theorem signals {μ : Type} (W : World ℝ μ) (log : ℕ → List (Sent μ)) : ∃ v, Solves W patch log v :=
  exists_signals _ _ _ (fun p => rank.getD p 0) ranked (plain) (by decide +kernel) W log

section
variable {μ : Type} {W : World ℝ μ} {log : ℕ → List (Sent μ)} {v : ℕ → ℕ → ℕ → ℝ}

/-- cos~, object 0: *~ 6.28319 -/
theorem n0 (h : Solves W patch log v) (t : ℕ) : v 0 0 t = v 3 0 t * 6.28319 := by
  have := h 0 (by simp [patch, ofConns])
  simp [Obeys, patch, ofConns, kind, conns, Conn.into, inSum, operand, hasSignal, World.op, World.fn, irOp, irFn, held_nil] at this
  simpa using this t

/-- cos~, object 2: outlet~ -/
theorem o0 (t : ℕ) : inSum v (patch.ins 2 0) t = v 19 0 t := by
  simp [patch, ofConns, conns, Conn.into, inSum]

/-- cos~, object 3: -~ 0.25 -/
theorem n3 (h : Solves W patch log v) (t : ℕ) : v 3 0 t = v 5 0 t - 0.25 := by
  have := h 3 (by simp [patch, ofConns])
  simp [Obeys, patch, ofConns, kind, conns, Conn.into, inSum, operand, hasSignal, World.op, World.fn, irOp, irFn, held_nil] at this
  simpa using this t

/-- cos~, object 4: -~ 0.5 -/
theorem n4 (h : Solves W patch log v) (t : ℕ) : v 4 0 t = v 7 0 t - 0.5 := by
  have := h 4 (by simp [patch, ofConns])
  simp [Obeys, patch, ofConns, kind, conns, Conn.into, inSum, operand, hasSignal, World.op, World.fn, irOp, irFn, held_nil] at this
  simpa using this t

/-- abs~, object 0: pd @hv_obj __abs~f -/
theorem n5 (h : Solves W patch log v) (t : ℕ) : v 5 0 t = W.un "abs" (v 4 0 t) := by
  have := h 5 (by simp [patch, ofConns])
  simp [Obeys, patch, ofConns, kind, conns, Conn.into, inSum, operand, hasSignal, World.op, World.fn, irOp, irFn, held_nil] at this
  simpa using this t

/-- wrap~, object 1: pd @hv_obj __floor~f -/
theorem n6 (h : Solves W patch log v) (t : ℕ) : v 6 0 t = W.un "floor" (v 1 0 t) := by
  have := h 6 (by simp [patch, ofConns])
  simp [Obeys, patch, ofConns, kind, conns, Conn.into, inSum, operand, hasSignal, World.op, World.fn, irOp, irFn, held_nil] at this
  simpa using this t

/-- wrap~, object 2: -~ -/
theorem n7 (h : Solves W patch log v) (t : ℕ) : v 7 0 t = v 1 0 t - v 6 0 t := by
  have := h 7 (by simp [patch, ofConns])
  simp [Obeys, patch, ofConns, kind, conns, Conn.into, inSum, operand, hasSignal, World.op, World.fn, irOp, irFn, held_nil] at this
  simpa using this t

/-- cos~, object 7: *~ -/
theorem n8 (h : Solves W patch log v) (t : ℕ) : v 8 0 t = v 0 0 t * v 10 0 t := by
  have := h 8 (by simp [patch, ofConns])
  simp [Obeys, patch, ofConns, kind, conns, Conn.into, inSum, operand, hasSignal, World.op, World.fn, irOp, irFn, held_nil] at this
  simpa using this t

/-- cos~, object 8: *~ -/
theorem n9 (h : Solves W patch log v) (t : ℕ) : v 9 0 t = v 8 0 t * v 10 0 t := by
  have := h 9 (by simp [patch, ofConns])
  simp [Obeys, patch, ofConns, kind, conns, Conn.into, inSum, operand, hasSignal, World.op, World.fn, irOp, irFn, held_nil] at this
  simpa using this t

/-- cos~, object 9: *~ -/
theorem n10 (h : Solves W patch log v) (t : ℕ) : v 10 0 t = v 0 0 t * v 0 0 t := by
  have := h 10 (by simp [patch, ofConns])
  simp [Obeys, patch, ofConns, kind, conns, Conn.into, inSum, operand, hasSignal, World.op, World.fn, irOp, irFn, held_nil] at this
  simpa using this t

/-- cos~, object 13: +~ -/
theorem n11 (h : Solves W patch log v) (t : ℕ) : v 11 0 t = v 12 0 t + v 14 0 t := by
  have := h 11 (by simp [patch, ofConns])
  simp [Obeys, patch, ofConns, kind, conns, Conn.into, inSum, operand, hasSignal, World.op, World.fn, irOp, irFn, held_nil] at this
  simpa using this t

/-- cos~, object 14: -~ -/
theorem n12 (h : Solves W patch log v) (t : ℕ) : v 12 0 t = v 0 0 t - v 13 0 t := by
  have := h 12 (by simp [patch, ofConns])
  simp [Obeys, patch, ofConns, kind, conns, Conn.into, inSum, operand, hasSignal, World.op, World.fn, irOp, irFn, held_nil] at this
  simpa using this t

/-- cos~, object 15: *~ 0.166667 -/
theorem n13 (h : Solves W patch log v) (t : ℕ) : v 13 0 t = v 8 0 t * 0.166667 := by
  have := h 13 (by simp [patch, ofConns])
  simp [Obeys, patch, ofConns, kind, conns, Conn.into, inSum, operand, hasSignal, World.op, World.fn, irOp, irFn, held_nil] at this
  simpa using this t

/-- cos~, object 16: *~ 0.00833333 -/
theorem n14 (h : Solves W patch log v) (t : ℕ) : v 14 0 t = v 9 0 t * 0.00833333 := by
  have := h 14 (by simp [patch, ofConns])
  simp [Obeys, patch, ofConns, kind, conns, Conn.into, inSum, operand, hasSignal, World.op, World.fn, irOp, irFn, held_nil] at this
  simpa using this t

/-- cos~, object 17: *~ -/
theorem n15 (h : Solves W patch log v) (t : ℕ) : v 15 0 t = v 9 0 t * v 10 0 t := by
  have := h 15 (by simp [patch, ofConns])
  simp [Obeys, patch, ofConns, kind, conns, Conn.into, inSum, operand, hasSignal, World.op, World.fn, irOp, irFn, held_nil] at this
  simpa using this t

/-- cos~, object 18: *~ 0.000198413 -/
theorem n16 (h : Solves W patch log v) (t : ℕ) : v 16 0 t = v 15 0 t * 0.000198413 := by
  have := h 16 (by simp [patch, ofConns])
  simp [Obeys, patch, ofConns, kind, conns, Conn.into, inSum, operand, hasSignal, World.op, World.fn, irOp, irFn, held_nil] at this
  simpa using this t

/-- cos~, object 19: -~ -/
theorem n17 (h : Solves W patch log v) (t : ℕ) : v 17 0 t = v 11 0 t - v 16 0 t := by
  have := h 17 (by simp [patch, ofConns])
  simp [Obeys, patch, ofConns, kind, conns, Conn.into, inSum, operand, hasSignal, World.op, World.fn, irOp, irFn, held_nil] at this
  simpa using this t

/-- cos~, object 20: *~ -/
theorem n18 (h : Solves W patch log v) (t : ℕ) : v 18 0 t = v 15 0 t * v 10 0 t := by
  have := h 18 (by simp [patch, ofConns])
  simp [Obeys, patch, ofConns, kind, conns, Conn.into, inSum, operand, hasSignal, World.op, World.fn, irOp, irFn, held_nil] at this
  simpa using this t

/-- cos~, object 21: +~ -/
theorem n19 (h : Solves W patch log v) (t : ℕ) : v 19 0 t = v 17 0 t + v 20 0 t := by
  have := h 19 (by simp [patch, ofConns])
  simp [Obeys, patch, ofConns, kind, conns, Conn.into, inSum, operand, hasSignal, World.op, World.fn, irOp, irFn, held_nil] at this
  simpa using this t

/-- cos~, object 22: *~ 2.75573e-06 -/
theorem n20 (h : Solves W patch log v) (t : ℕ) : v 20 0 t = v 18 0 t * 0.00000275573 := by
  have := h 20 (by simp [patch, ofConns])
  simp [Obeys, patch, ofConns, kind, conns, Conn.into, inSum, operand, hasSignal, World.op, World.fn, irOp, irFn, held_nil] at this
  simpa using this t

end

end Verif.Sig.Cos
