import Verif.Sig
/-! Generated by `tools/pdsig.py vcf~ 1` from hvcc/interpreters/pd2hv/libs/pd/vcf~.pd (and the library objects in it). -/
namespace Verif.Sig.Vcf
open Verif.Reduce

/-- the objects -/
noncomputable def kind (a1 : ℝ) : ℕ → Kind ℝ
  | 0 => .other "inlet"  -- vcf~, object 0: inlet~ f
  | 1 => .other "inlet"  -- vcf~, object 1: inlet q
  | 2 => .other "message"  -- vcf~, object 2: 1 \$1
  | 3 => .other "message"  -- vcf~, object 3: /
  | 4 => .other "message"  -- vcf~, object 5: + 2
  | 5 => .other "message"  -- vcf~, object 6: 2 \$1
  | 6 => .other "message"  -- vcf~, object 7: /
  | 7 => .other "message"  -- vcf~, object 8: 2 \$1
  | 8 => .other "message"  -- vcf~, object 9: -
  | 9 => .other "message"  -- vcf~, object 11: samplerate~
  | 10 => .other "message"  -- vcf~, object 12: /
  | 11 => .binop "*" 0  -- vcf~, object 13: *~
  | 12 => .binop "*" 0  -- vcf~, object 14: *~
  | 13 => .var 1  -- sig~, object 3: pd @hv_obj var \$1
  | 14 => .binop "-" 0  -- vcf~, object 16: -~
  | 15 => .other "outlet"  -- vcf~, object 17: outlet~
  | 16 => .other "outlet"  -- vcf~, object 18: outlet~
  | 17 => .other "message"  -- vcf~, object 19: 6.28319 \$1
  | 18 => .binop "*" 0  -- vcf~, object 20: *~
  | 19 => .binop "*" 0  -- vcf~, object 21: *~
  | 20 => .binop "*" 0  -- vcf~, object 22: *~
  | 21 => .binop "*" 0  -- vcf~, object 23: *~
  | 22 => .binop "*" 0  -- vcf~, object 24: *~
  | 23 => .binop "-" 0  -- vcf~, object 25: -~
  | 24 => .irUn "__sqrt~f"  -- sqrt~, object 0: pd @hv_obj __sqrt~f
  | 25 => .irBin "__and~f"  -- sqrt~, object 3: pd @hv_obj __and~f
  | 26 => .var 0  -- sig~, object 3: pd @hv_obj var \$1
  | 27 => .irBin "__gt~f"  -- sqrt~, object 5: pd @hv_obj __gt~f
  | 28 => .other "__cpole~f"  -- vcf~, object 28: pd @hv_obj __cpole~f
  | 29 => .other "message"  -- vcf~, object 32: f \$1
  | 30 => .other "message"  -- vcf~, object 33: loadbang
  | 31 => .irUn "__cos~f"  -- vcf~, object 34: pd @hv_obj __cos~f
  | 32 => .other "inlet"  -- vcf~, object 35: inlet~ in
  | 33 => .other "message"  -- vcf~, object 36: 0
  | 34 => .other "message"  -- vcf~, object 37: t a
  | 35 => .other "message"  -- vcf~, object 38: t a a
  | 36 => .binop "min" 0  -- vcf~, object 39: min~
  | 37 => .other "message"  -- vcf~, object 40: -1
  | 38 => .other "message"  -- vcf~, object 42: moses 1e-05
  | 39 => .binop "max" 0.00001  -- vcf~, object 45: max~ 1e-05
  | _ => .other ""

/-- the signal objects that are not operators, with their names and numeric arguments -/
noncomputable def special (a1 : ℝ) : List (ℕ × String × List ℝ) := [(28, "__cpole~f", [])]

/-- the connections -/
def conns : List Conn := [⟨13, 0, 14, 1, .f⟩, ⟨13, 0, 23, 0, .f⟩, ⟨26, 0, 27, 1, .f⟩, ⟨24, 0, 25, 1, .f⟩, ⟨25, 0, 21, 1, .f⟩, ⟨27, 0, 25, 0, .f⟩, ⟨0, 0, 11, 0, .f⟩, ⟨1, 0, 29, 0, .c⟩, ⟨2, 0, 3, 0, .c⟩, ⟨3, 0, 34, 0, .c⟩, ⟨4, 0, 5, 0, .c⟩, ⟨5, 0, 6, 0, .c⟩, ⟨6, 0, 7, 0, .c⟩, ⟨7, 0, 8, 0, .c⟩, ⟨8, 0, 19, 1, .c⟩, ⟨9, 0, 17, 0, .c⟩, ⟨10, 0, 11, 1, .c⟩, ⟨11, 0, 39, 0, .f⟩, ⟨12, 0, 18, 1, .f⟩, ⟨12, 0, 14, 0, .f⟩, ⟨14, 0, 20, 0, .f⟩, ⟨14, 0, 21, 0, .f⟩, ⟨17, 0, 10, 0, .c⟩, ⟨18, 0, 19, 0, .f⟩, ⟨19, 0, 28, 0, .f⟩, ⟨20, 0, 28, 2, .f⟩, ⟨21, 0, 28, 3, .f⟩, ⟨22, 0, 23, 1, .f⟩, ⟨23, 0, 27, 0, .f⟩, ⟨23, 0, 24, 0, .f⟩, ⟨28, 0, 16, 0, .f⟩, ⟨28, 1, 15, 0, .f⟩, ⟨29, 0, 38, 0, .c⟩, ⟨30, 0, 35, 0, .c⟩, ⟨31, 0, 22, 0, .f⟩, ⟨31, 0, 22, 1, .f⟩, ⟨31, 0, 20, 1, .f⟩, ⟨32, 0, 18, 0, .f⟩, ⟨33, 0, 4, 0, .c⟩, ⟨34, 0, 12, 1, .c⟩, ⟨35, 0, 29, 0, .c⟩, ⟨35, 1, 9, 0, .c⟩, ⟨36, 0, 12, 0, .f⟩, ⟨37, 0, 36, 1, .c⟩, ⟨37, 0, 12, 1, .c⟩, ⟨38, 0, 33, 0, .c⟩, ⟨38, 0, 37, 0, .c⟩, ⟨38, 1, 2, 0, .c⟩, ⟨38, 1, 4, 0, .c⟩, ⟨38, 1, 36, 1, .c⟩, ⟨39, 0, 36, 0, .f⟩, ⟨39, 0, 31, 0, .f⟩]

/-- vcf~.pd -/
noncomputable def patch (a1 : ℝ) : Graph ℝ := ofConns (List.range 40) (kind a1) conns

/-- inlet 0 -/
abbrev in0 : ℕ := 32
/-- inlet 1 -/
abbrev in1 : ℕ := 0
/-- inlet 2 -/
abbrev in2 : ℕ := 1
/-- outlet 0 -/
abbrev out0 : ℕ := 16
/-- outlet 1 -/
abbrev out1 : ℕ := 15

/-- an order of evaluation -/
def rank : List ℕ := [1, 1, 1, 1, 1, 1, 1, 1, 1, 1, 1, 2, 5, 1, 6, 11, 11, 1, 6, 7, 7, 9, 5, 6, 7, 8, 1, 7, 10, 1, 1, 4, 1, 1, 1, 1, 4, 1, 1, 3]

theorem ranked : ∀ c ∈ conns, c.ty = .f → rank.getD c.src 0 < rank.getD c.dst 0 := by decide +kernel

theorem plain (a1 : ℝ) (p : ℕ) : (∀ m, (kind a1 p) ≠ .receive m) ∧ ∀ m, kind a1 p ≠ .varRead m := by unfold kind; split <;> simp

/-- the patch has signals, whatever the other objects do and whatever messages come -/
theorem signals (a1 : ℝ) {μ : Type} (W : World ℝ μ) (log : ℕ → List (Sent μ)) : ∃ v, Solves W (patch a1) log v :=
  exists_signals _ _ _ (fun p => rank.getD p 0) ranked (plain a1) (by decide +kernel) W log

section
variable {μ : Type} {W : World ℝ μ} {log : ℕ → List (Sent μ)} {v : ℕ → ℕ → ℕ → ℝ} {a1 : ℝ}

/-- vcf~, object 13: *~ -/
theorem n11 (h : Solves W (patch a1) log v) (t : ℕ) : v 11 0 t = v 0 0 t * (held W 0 (received (log t) [⟨10, 0, 11, 1, .c⟩])) := by
  have := h 11 (by simp [patch, ofConns])
  simp [Obeys, patch, ofConns, kind, conns, Conn.into, inSum, operand, hasSignal, World.op, World.fn, irOp, irFn, held_nil] at this
  simpa using this t

/-- vcf~, object 14: *~ -/
theorem n12 (h : Solves W (patch a1) log v) (t : ℕ) : v 12 0 t = v 36 0 t * (held W 0 (received (log t) [⟨34, 0, 12, 1, .c⟩, ⟨37, 0, 12, 1, .c⟩])) := by
  have := h 12 (by simp [patch, ofConns])
  simp [Obeys, patch, ofConns, kind, conns, Conn.into, inSum, operand, hasSignal, World.op, World.fn, irOp, irFn, held_nil] at this
  simpa using this t

/-- sig~, object 3: pd @hv_obj var \$1 -/
theorem n13 (h : Solves W (patch a1) log v) (t : ℕ) : v 13 0 t = 1 := by
  have := h 13 (by simp [patch, ofConns])
  simp [Obeys, patch, ofConns, kind, conns, Conn.into, inSum, operand, hasSignal, World.op, World.fn, irOp, irFn, held_nil] at this
  simpa using this t

/-- vcf~, object 16: -~ -/
theorem n14 (h : Solves W (patch a1) log v) (t : ℕ) : v 14 0 t = v 12 0 t - v 13 0 t := by
  have := h 14 (by simp [patch, ofConns])
  simp [Obeys, patch, ofConns, kind, conns, Conn.into, inSum, operand, hasSignal, World.op, World.fn, irOp, irFn, held_nil] at this
  simpa using this t

/-- vcf~, object 17: outlet~ -/
theorem o1 (t : ℕ) : inSum v ((patch a1).ins 15 0) t = v 28 1 t := by
  simp [patch, ofConns, conns, Conn.into, inSum]

/-- vcf~, object 18: outlet~ -/
theorem o0 (t : ℕ) : inSum v ((patch a1).ins 16 0) t = v 28 0 t := by
  simp [patch, ofConns, conns, Conn.into, inSum]

/-- vcf~, object 20: *~ -/
theorem n18 (h : Solves W (patch a1) log v) (t : ℕ) : v 18 0 t = v 32 0 t * v 12 0 t := by
  have := h 18 (by simp [patch, ofConns])
  simp [Obeys, patch, ofConns, kind, conns, Conn.into, inSum, operand, hasSignal, World.op, World.fn, irOp, irFn, held_nil] at this
  simpa using this t

/-- vcf~, object 21: *~ -/
theorem n19 (h : Solves W (patch a1) log v) (t : ℕ) : v 19 0 t = v 18 0 t * (held W 0 (received (log t) [⟨8, 0, 19, 1, .c⟩])) := by
  have := h 19 (by simp [patch, ofConns])
  simp [Obeys, patch, ofConns, kind, conns, Conn.into, inSum, operand, hasSignal, World.op, World.fn, irOp, irFn, held_nil] at this
  simpa using this t

/-- vcf~, object 22: *~ -/
theorem n20 (h : Solves W (patch a1) log v) (t : ℕ) : v 20 0 t = v 14 0 t * v 31 0 t := by
  have := h 20 (by simp [patch, ofConns])
  simp [Obeys, patch, ofConns, kind, conns, Conn.into, inSum, operand, hasSignal, World.op, World.fn, irOp, irFn, held_nil] at this
  simpa using this t

/-- vcf~, object 23: *~ -/
theorem n21 (h : Solves W (patch a1) log v) (t : ℕ) : v 21 0 t = v 14 0 t * v 25 0 t := by
  have := h 21 (by simp [patch, ofConns])
  simp [Obeys, patch, ofConns, kind, conns, Conn.into, inSum, operand, hasSignal, World.op, World.fn, irOp, irFn, held_nil] at this
  simpa using this t

/-- vcf~, object 24: *~ -/
theorem n22 (h : Solves W (patch a1) log v) (t : ℕ) : v 22 0 t = v 31 0 t * v 31 0 t := by
  have := h 22 (by simp [patch, ofConns])
  simp [Obeys, patch, ofConns, kind, conns, Conn.into, inSum, operand, hasSignal, World.op, World.fn, irOp, irFn, held_nil] at this
  simpa using this t

/-- vcf~, object 25: -~ -/
theorem n23 (h : Solves W (patch a1) log v) (t : ℕ) : v 23 0 t = v 13 0 t - v 22 0 t := by
  have := h 23 (by simp [patch, ofConns])
  simp [Obeys, patch, ofConns, kind, conns, Conn.into, inSum, operand, hasSignal, World.op, World.fn, irOp, irFn, held_nil] at this
  simpa using this t

/-- sqrt~, object 0: pd @hv_obj __sqrt~f -/
theorem n24 (h : Solves W (patch a1) log v) (t : ℕ) : v 24 0 t = W.un "sqrt" (v 23 0 t) := by
  have := h 24 (by simp [patch, ofConns])
  simp [Obeys, patch, ofConns, kind, conns, Conn.into, inSum, operand, hasSignal, World.op, World.fn, irOp, irFn, held_nil] at this
  simpa using this t

/-- sqrt~, object 3: pd @hv_obj __and~f -/
theorem n25 (h : Solves W (patch a1) log v) (t : ℕ) : v 25 0 t = W.bin "&" (v 27 0 t) (v 24 0 t) := by
  have := h 25 (by simp [patch, ofConns])
  simp [Obeys, patch, ofConns, kind, conns, Conn.into, inSum, operand, hasSignal, World.op, World.fn, irOp, irFn, held_nil] at this
  simpa using this t

/-- sig~, object 3: pd @hv_obj var \$1 -/
theorem n26 (h : Solves W (patch a1) log v) (t : ℕ) : v 26 0 t = 0 := by
  have := h 26 (by simp [patch, ofConns])
  simp [Obeys, patch, ofConns, kind, conns, Conn.into, inSum, operand, hasSignal, World.op, World.fn, irOp, irFn, held_nil] at this
  simpa using this t

/-- sqrt~, object 5: pd @hv_obj __gt~f -/
theorem n27 (h : Solves W (patch a1) log v) (t : ℕ) : v 27 0 t = W.bin ">" (v 23 0 t) (v 26 0 t) := by
  have := h 27 (by simp [patch, ofConns])
  simp [Obeys, patch, ofConns, kind, conns, Conn.into, inSum, operand, hasSignal, World.op, World.fn, irOp, irFn, held_nil] at this
  simpa using this t

/-- vcf~, object 34: pd @hv_obj __cos~f -/
theorem n31 (h : Solves W (patch a1) log v) (t : ℕ) : v 31 0 t = W.un "cos" (v 39 0 t) := by
  have := h 31 (by simp [patch, ofConns])
  simp [Obeys, patch, ofConns, kind, conns, Conn.into, inSum, operand, hasSignal, World.op, World.fn, irOp, irFn, held_nil] at this
  simpa using this t

/-- vcf~, object 39: min~ -/
theorem n36 (h : Solves W (patch a1) log v) (t : ℕ) : v 36 0 t = W.bin "min" (v 39 0 t) (held W 0 (received (log t) [⟨37, 0, 36, 1, .c⟩, ⟨38, 1, 36, 1, .c⟩])) := by
  have := h 36 (by simp [patch, ofConns])
  simp [Obeys, patch, ofConns, kind, conns, Conn.into, inSum, operand, hasSignal, World.op, World.fn, irOp, irFn, held_nil] at this
  simpa using this t

/-- vcf~, object 45: max~ 1e-05 -/
theorem n39 (h : Solves W (patch a1) log v) (t : ℕ) : v 39 0 t = W.bin "max" (v 11 0 t) 0.00001 := by
  have := h 39 (by simp [patch, ofConns])
  simp [Obeys, patch, ofConns, kind, conns, Conn.into, inSum, operand, hasSignal, World.op, World.fn, irOp, irFn, held_nil] at this
  simpa using this t

end

end Verif.Sig.Vcf
