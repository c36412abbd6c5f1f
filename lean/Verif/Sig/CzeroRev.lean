import Verif.Sig
/-! Generated by `tools/pdsig.py czero_rev~ 0` from hvcc/interpreters/pd2hv/libs/pd/czero_rev~.pd (and the library objects in it). -/
namespace Verif.Sig.CzeroRev
open Verif.Reduce

/-- the objects -/
noncomputable def kind : ℕ → Kind ℝ
  | 0 => .other "outlet"  -- czero_rev~, object 0: outlet~
  | 1 => .other "outlet"  -- czero_rev~, object 1: outlet~
  | 2 => .other "inlet"  -- czero_rev~, object 2: inlet~ a
  | 3 => .other "inlet"  -- czero_rev~, object 3: inlet~ b
  | 4 => .other "inlet"  -- czero_rev~, object 4: inlet~ c
  | 5 => .other "inlet"  -- czero_rev~, object 5: inlet~ d
  | 6 => .other "__del1~f"  -- czero_rev~, object 6: pd @hv_obj __del1~f e
  | 7 => .other "__del1~f"  -- czero_rev~, object 7: pd @hv_obj __del1~f f
  | 8 => .binop "*" 0  -- czero_rev~, object 8: *~
  | 9 => .binop "-" 0  -- czero_rev~, object 9: -~
  | 10 => .binop "*" 0  -- czero_rev~, object 10: *~
  | 11 => .binop "-" 0  -- czero_rev~, object 11: -~
  | 12 => .binop "*" 0  -- czero_rev~, object 12: *~
  | 13 => .binop "*" 0  -- czero_rev~, object 13: *~
  | 14 => .binop "-" 0  -- czero_rev~, object 14: -~
  | 15 => .binop "+" 0  -- czero_rev~, object 15: +~
  | _ => .other ""

/-- the signal objects that are not operators, with their names and numeric arguments -/
noncomputable def special : List (ℕ × String × List ℝ) := [(6, "__del1~f", []), (7, "__del1~f", [])]

/-- the connections -/
def conns : List Conn := [⟨2, 0, 6, 0, .f⟩, ⟨2, 0, 10, 0, .f⟩, ⟨2, 0, 12, 0, .f⟩, ⟨3, 0, 7, 0, .f⟩, ⟨3, 0, 8, 0, .f⟩, ⟨3, 0, 13, 0, .f⟩, ⟨4, 0, 10, 1, .f⟩, ⟨4, 0, 13, 1, .f⟩, ⟨5, 0, 8, 1, .f⟩, ⟨5, 0, 12, 1, .f⟩, ⟨6, 0, 11, 0, .f⟩, ⟨7, 0, 14, 0, .f⟩, ⟨8, 0, 9, 1, .f⟩, ⟨9, 0, 11, 1, .f⟩, ⟨10, 0, 9, 0, .f⟩, ⟨11, 0, 1, 0, .f⟩, ⟨12, 0, 15, 1, .f⟩, ⟨13, 0, 15, 0, .f⟩, ⟨14, 0, 0, 0, .f⟩, ⟨15, 0, 14, 1, .f⟩]

/-- czero_rev~.pd -/
noncomputable def patch : Graph ℝ := ofConns (List.range 16) (kind) conns

/-- inlet 0 -/
abbrev in0 : ℕ := 2
/-- inlet 1 -/
abbrev in1 : ℕ := 3
/-- inlet 2 -/
abbrev in2 : ℕ := 4
/-- inlet 3 -/
abbrev in3 : ℕ := 5
/-- outlet 0 -/
abbrev out0 : ℕ := 1
/-- outlet 1 -/
abbrev out1 : ℕ := 0

/-- an order of evaluation -/
def rank : List ℕ := [5, 5, 1, 1, 1, 1, 2, 2, 2, 3, 2, 4, 2, 2, 4, 3]

theorem ranked : ∀ c ∈ conns, c.ty = .f → rank.getD c.src 0 < rank.getD c.dst 0 := by decide +kernel

theorem plain (p : ℕ) : (∀ m, (kind p) ≠ .receive m) ∧ ∀ m, kind p ≠ .varRead m := by unfold kind; split <;> simp

/-- the patch has signals, whatever the other objects do and whatever messages come -/
theorem signals {μ : Type} (W : World ℝ μ) (log : ℕ → List (Sent μ)) : ∃ v, Solves W patch log v :=
  exists_signals _ _ _ (fun p => rank.getD p 0) ranked (plain) (by decide +kernel) W log

section
variable {μ : Type} {W : World ℝ μ} {log : ℕ → List (Sent μ)} {v : ℕ → ℕ → ℕ → ℝ}

/-- czero_rev~, object 0: outlet~ -/
theorem o1 (t : ℕ) : inSum v (patch.ins 0 0) t = v 14 0 t := by
  simp [patch, ofConns, conns, Conn.into, inSum]

/-- czero_rev~, object 1: outlet~ -/
theorem o0 (t : ℕ) : inSum v (patch.ins 1 0) t = v 11 0 t := by
  simp [patch, ofConns, conns, Conn.into, inSum]

/-- czero_rev~, object 8: *~ -/
theorem n8 (h : Solves W patch log v) (t : ℕ) : v 8 0 t = v 3 0 t * v 5 0 t := by
  have := h 8 (by simp [patch, ofConns])
  simp [Obeys, patch, ofConns, kind, conns, Conn.into, inSum, operand, hasSignal, World.op, World.fn, irOp, irFn, held_nil] at this
  simpa using this t

/-- czero_rev~, object 9: -~ -/
theorem n9 (h : Solves W patch log v) (t : ℕ) : v 9 0 t = v 10 0 t - v 8 0 t := by
  have := h 9 (by simp [patch, ofConns])
  simp [Obeys, patch, ofConns, kind, conns, Conn.into, inSum, operand, hasSignal, World.op, World.fn, irOp, irFn, held_nil] at this
  simpa using this t

/-- czero_rev~, object 10: *~ -/
theorem n10 (h : Solves W patch log v) (t : ℕ) : v 10 0 t = v 2 0 t * v 4 0 t := by
  have := h 10 (by simp [patch, ofConns])
  simp [Obeys, patch, ofConns, kind, conns, Conn.into, inSum, operand, hasSignal, World.op, World.fn, irOp, irFn, held_nil] at this
  simpa using this t

/-- czero_rev~, object 11: -~ -/
theorem n11 (h : Solves W patch log v) (t : ℕ) : v 11 0 t = v 6 0 t - v 9 0 t := by
  have := h 11 (by simp [patch, ofConns])
  simp [Obeys, patch, ofConns, kind, conns, Conn.into, inSum, operand, hasSignal, World.op, World.fn, irOp, irFn, held_nil] at this
  simpa using this t

/-- czero_rev~, object 12: *~ -/
theorem n12 (h : Solves W patch log v) (t : ℕ) : v 12 0 t = v 2 0 t * v 5 0 t := by
  have := h 12 (by simp [patch, ofConns])
  simp [Obeys, patch, ofConns, kind, conns, Conn.into, inSum, operand, hasSignal, World.op, World.fn, irOp, irFn, held_nil] at this
  simpa using this t

/-- czero_rev~, object 13: *~ -/
theorem n13 (h : Solves W patch log v) (t : ℕ) : v 13 0 t = v 3 0 t * v 4 0 t := by
  have := h 13 (by simp [patch, ofConns])
  simp [Obeys, patch, ofConns, kind, conns, Conn.into, inSum, operand, hasSignal, World.op, World.fn, irOp, irFn, held_nil] at this
  simpa using this t

/-- czero_rev~, object 14: -~ -/
theorem n14 (h : Solves W patch log v) (t : ℕ) : v 14 0 t = v 7 0 t - v 15 0 t := by
  have := h 14 (by simp [patch, ofConns])
  simp [Obeys, patch, ofConns, kind, conns, Conn.into, inSum, operand, hasSignal, World.op, World.fn, irOp, irFn, held_nil] at this
  simpa using this t

/-- czero_rev~, object 15: +~ -/
theorem n15 (h : Solves W patch log v) (t : ℕ) : v 15 0 t = v 13 0 t + v 12 0 t := by
  have := h 15 (by simp [patch, ofConns])
  simp [Obeys, patch, ofConns, kind, conns, Conn.into, inSum, operand, hasSignal, World.op, World.fn, irOp, irFn, held_nil] at this
  simpa using this t

end

end Verif.Sig.CzeroRev
