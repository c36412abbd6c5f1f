import Verif.Sig
/-! Generated by `tools/pdsig.py czero~ 0` from hvcc/interpreters/pd2hv/libs/pd/czero~.pd (and the library objects in it). -/
namespace Verif.Sig.Czero
open Verif.Reduce

/-- the objects -/
noncomputable def kind : ℕ → Kind ℝ
  | 0 => .other "outlet"  -- czero~, object 0: outlet~
  | 1 => .other "outlet"  -- czero~, object 1: outlet~
  | 2 => .binop "+" 0  -- czero~, object 2: +~
  | 3 => .binop "*" 0  -- czero~, object 3: *~
  | 4 => .binop "*" 0  -- czero~, object 4: *~
  | 5 => .other "inlet"  -- czero~, object 5: inlet~ a
  | 6 => .other "inlet"  -- czero~, object 6: inlet~ b
  | 7 => .other "inlet"  -- czero~, object 7: inlet~ c
  | 8 => .other "inlet"  -- czero~, object 8: inlet~ d
  | 9 => .other "__del1~f"  -- czero~, object 9: pd @hv_obj __del1~f e
  | 10 => .other "__del1~f"  -- czero~, object 10: pd @hv_obj __del1~f f
  | 11 => .binop "-" 0  -- czero~, object 11: -~
  | 12 => .binop "*" 0  -- czero~, object 12: *~
  | 13 => .binop "*" 0  -- czero~, object 13: *~
  | 14 => .binop "+" 0  -- czero~, object 14: +~
  | 15 => .binop "-" 0  -- czero~, object 15: -~
  | _ => .other ""

/-- the signal objects that are not operators, with their names and numeric arguments -/
noncomputable def special : List (ℕ × String × List ℝ) := [(9, "__del1~f", []), (10, "__del1~f", [])]

/-- the connections -/
def conns : List Conn := [⟨2, 0, 1, 0, .f⟩, ⟨3, 0, 11, 0, .f⟩, ⟨4, 0, 11, 1, .f⟩, ⟨5, 0, 9, 0, .f⟩, ⟨5, 0, 2, 0, .f⟩, ⟨6, 0, 10, 0, .f⟩, ⟨6, 0, 15, 0, .f⟩, ⟨7, 0, 4, 1, .f⟩, ⟨7, 0, 12, 1, .f⟩, ⟨8, 0, 3, 0, .f⟩, ⟨8, 0, 13, 1, .f⟩, ⟨9, 0, 4, 0, .f⟩, ⟨9, 0, 13, 0, .f⟩, ⟨10, 0, 3, 1, .f⟩, ⟨10, 0, 12, 0, .f⟩, ⟨11, 0, 2, 1, .f⟩, ⟨12, 0, 14, 0, .f⟩, ⟨13, 0, 14, 1, .f⟩, ⟨14, 0, 15, 1, .f⟩, ⟨15, 0, 0, 0, .f⟩]

/-- czero~.pd -/
noncomputable def patch : Graph ℝ := ofConns (List.range 16) (kind) conns

/-- inlet 0 -/
abbrev in0 : ℕ := 5
/-- inlet 1 -/
abbrev in1 : ℕ := 6
/-- inlet 2 -/
abbrev in2 : ℕ := 7
/-- inlet 3 -/
abbrev in3 : ℕ := 8
/-- outlet 0 -/
abbrev out0 : ℕ := 1
/-- outlet 1 -/
abbrev out1 : ℕ := 0

/-- an order of evaluation -/
def rank : List ℕ := [6, 6, 5, 3, 3, 1, 1, 1, 1, 2, 2, 4, 3, 3, 4, 5]

theorem ranked : ∀ c ∈ conns, c.ty = .f → rank.getD c.src 0 < rank.getD c.dst 0 := by decide +kernel

theorem plain (p : ℕ) : (∀ m, (kind p) ≠ .receive m) ∧ ∀ m, kind p ≠ .varRead m := by unfold kind; split <;> simp

/-- the patch has signals, whatever the other objects do and whatever messages come -/
theorem signals {μ : Type} (W : World ℝ μ) (log : ℕ → List (Sent μ)) : ∃ v, Solves W patch log v :=
  exists_signals _ _ _ (fun p => rank.getD p 0) ranked (plain) (by decide +kernel) W log

section
variable {μ : Type} {W : World ℝ μ} {log : ℕ → List (Sent μ)} {v : ℕ → ℕ → ℕ → ℝ}

/-- czero~, object 0: outlet~ -/
theorem o1 (t : ℕ) : inSum v (patch.ins 0 0) t = v 15 0 t := by
  simp [patch, ofConns, conns, Conn.into, inSum]

/-- czero~, object 1: outlet~ -/
theorem o0 (t : ℕ) : inSum v (patch.ins 1 0) t = v 2 0 t := by
  simp [patch, ofConns, conns, Conn.into, inSum]

/-- czero~, object 2: +~ -/
theorem n2 (h : Solves W patch log v) (t : ℕ) : v 2 0 t = v 5 0 t + v 11 0 t := by
  have := h 2 (by simp [patch, ofConns])
  simp [Obeys, patch, ofConns, kind, conns, Conn.into, inSum, operand, hasSignal, World.op, World.fn, irOp, irFn, held_nil] at this
  simpa using this t

/-- czero~, object 3: *~ -/
theorem n3 (h : Solves W patch log v) (t : ℕ) : v 3 0 t = v 8 0 t * v 10 0 t := by
  have := h 3 (by simp [patch, ofConns])
  simp [Obeys, patch, ofConns, kind, conns, Conn.into, inSum, operand, hasSignal, World.op, World.fn, irOp, irFn, held_nil] at this
  simpa using this t

/-- czero~, object 4: *~ -/
theorem n4 (h : Solves W patch log v) (t : ℕ) : v 4 0 t = v 9 0 t * v 7 0 t := by
  have := h 4 (by simp [patch, ofConns])
  simp [Obeys, patch, ofConns, kind, conns, Conn.into, inSum, operand, hasSignal, World.op, World.fn, irOp, irFn, held_nil] at this
  simpa using this t

/-- czero~, object 11: -~ -/
theorem n11 (h : Solves W patch log v) (t : ℕ) : v 11 0 t = v 3 0 t - v 4 0 t := by
  have := h 11 (by simp [patch, ofConns])
  simp [Obeys, patch, ofConns, kind, conns, Conn.into, inSum, operand, hasSignal, World.op, World.fn, irOp, irFn, held_nil] at this
  simpa using this t

/-- czero~, object 12: *~ -/
theorem n12 (h : Solves W patch log v) (t : ℕ) : v 12 0 t = v 10 0 t * v 7 0 t := by
  have := h 12 (by simp [patch, ofConns])
  simp [Obeys, patch, ofConns, kind, conns, Conn.into, inSum, operand, hasSignal, World.op, World.fn, irOp, irFn, held_nil] at this
  simpa using this t

/-- czero~, object 13: *~ -/
theorem n13 (h : Solves W patch log v) (t : ℕ) : v 13 0 t = v 9 0 t * v 8 0 t := by
  have := h 13 (by simp [patch, ofConns])
  simp [Obeys, patch, ofConns, kind, conns, Conn.into, inSum, operand, hasSignal, World.op, World.fn, irOp, irFn, held_nil] at this
  simpa using this t

/-- czero~, object 14: +~ -/
theorem n14 (h : Solves W patch log v) (t : ℕ) : v 14 0 t = v 12 0 t + v 13 0 t := by
  have := h 14 (by simp [patch, ofConns])
  simp [Obeys, patch, ofConns, kind, conns, Conn.into, inSum, operand, hasSignal, World.op, World.fn, irOp, irFn, held_nil] at this
  simpa using this t

/-- czero~, object 15: -~ -/
theorem n15 (h : Solves W patch log v) (t : ℕ) : v 15 0 t = v 6 0 t - v 14 0 t := by
  have := h 15 (by simp [patch, ofConns])
  simp [Obeys, patch, ofConns, kind, conns, Conn.into, inSum, operand, hasSignal, World.op, World.fn, irOp, irFn, held_nil] at this
  simpa using this t

end

end Verif.Sig.Czero
