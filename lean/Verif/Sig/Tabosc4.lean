import Verif.Sig
/-! Generated by `tools/pdsig.py tabosc4~ 1 cc` from hvcc/interpreters/pd2hv/libs/pd/tabosc4~.pd (and the library objects in it). -/
namespace Verif.Sig.Tabosc4
open Verif.Reduce

/-- the objects -/
noncomputable def kind (a1 : ℝ) : ℕ → Kind ℝ
  | 0 => .binop "*" 0  -- tabosc4~, object 0: *~
  | 1 => .other "message"  -- tabosc4~, object 1: pd @hv_obj system
  | 2 => .other "message"  -- tabosc4~, object 2: table \$1 size
  | 3 => .other "message"  -- tabosc4~, object 3: pd @hv_obj __var \$1
  | 4 => .other "outlet"  -- tabosc4~, object 4: outlet~
  | 5 => .binop "-" 0  -- tabosc4~, object 5: -~
  | 6 => .binop "-" 0  -- tabosc4~, object 6: -~
  | 7 => .binop "*" 0  -- tabosc4~, object 7: *~
  | 8 => .binop "+" 0  -- tabosc4~, object 8: +~
  | 9 => .irUn "__floor~f"  -- tabosc4~, object 10: pd @hv_obj __floor~f
  | 10 => .other "__cast~fi"  -- tabosc4~, object 11: pd @hv_obj __cast~fi
  | 11 => .other "__add~i"  -- tabosc4~, object 12: pd @hv_obj __add~i
  | 12 => .varK 1  -- tabosc4~, object 13: pd @hv_obj __var_k~i 1
  | 13 => .other "__tabread~if"  -- tabosc4~, object 15: pd @hv_obj __tabread~if \$1
  | 14 => .other "__tabread~if"  -- tabosc4~, object 16: pd @hv_obj __tabread~if \$1
  | 15 => .other "message"  -- tabosc4~, object 17: - 2
  | 16 => .other "message"  -- tabosc4~, object 18: pd @hv_obj __switchcase set
  | 17 => .other "message"  -- tabosc4~, object 19: pd @hv_obj slice 1 1
  | 18 => .other "inlet"  -- tabosc4~, object 20: inlet
  | 19 => .other "message"  -- tabosc4~, object 21: loadbang -1
  | 20 => .other "phasor"  -- tabosc4~, object 22: pd @hv_obj phasor
  | 21 => .other "inlet"  -- tabosc4~, object 23: inlet -~>
  | _ => .other ""

/-- the signal objects that are not operators, with their names and numeric arguments -/
noncomputable def special (a1 : ℝ) : List (ℕ × String × List ℝ) := [(10, "__cast~fi", []), (11, "__add~i", []), (13, "__tabread~if", [a1]), (14, "__tabread~if", [a1]), (20, "phasor", [])]

/-- the connections -/
def conns : List Conn := [⟨0, 0, 9, 0, .f⟩, ⟨0, 0, 6, 0, .f⟩, ⟨1, 0, 15, 0, .c⟩, ⟨2, 0, 1, 0, .c⟩, ⟨3, 0, 2, 0, .c⟩, ⟨5, 0, 7, 0, .f⟩, ⟨6, 0, 7, 1, .f⟩, ⟨7, 0, 8, 1, .f⟩, ⟨8, 0, 4, 0, .f⟩, ⟨9, 0, 6, 1, .f⟩, ⟨9, 0, 10, 0, .f⟩, ⟨10, 0, 14, 0, .f⟩, ⟨10, 0, 11, 0, .f⟩, ⟨11, 0, 13, 0, .f⟩, ⟨12, 0, 11, 1, .f⟩, ⟨13, 0, 5, 0, .f⟩, ⟨14, 0, 8, 0, .f⟩, ⟨14, 0, 5, 1, .f⟩, ⟨15, 0, 0, 1, .c⟩, ⟨16, 0, 17, 0, .c⟩, ⟨17, 0, 3, 0, .c⟩, ⟨17, 0, 14, 1, .c⟩, ⟨17, 0, 13, 1, .c⟩, ⟨18, 0, 20, 1, .c⟩, ⟨19, 0, 3, 0, .c⟩, ⟨20, 0, 0, 0, .f⟩, ⟨21, 0, 16, 0, .c⟩, ⟨21, 0, 20, 0, .c⟩]

/-- tabosc4~.pd -/
noncomputable def patch (a1 : ℝ) : Graph ℝ := ofConns (List.range 22) (kind a1) conns

/-- inlet 0 -/
abbrev in0 : ℕ := 21
/-- inlet 1 -/
abbrev in1 : ℕ := 18
/-- outlet 0 -/
abbrev out0 : ℕ := 4

/-- an order of evaluation -/
def rank : List ℕ := [2, 1, 1, 1, 10, 7, 4, 8, 9, 3, 4, 5, 1, 6, 5, 1, 1, 1, 1, 1, 1, 1]

theorem ranked : ∀ c ∈ conns, c.ty = .f → rank.getD c.src 0 < rank.getD c.dst 0 := by decide +kernel

theorem plain (a1 : ℝ) (p : ℕ) : (∀ m, (kind a1 p) ≠ .receive m) ∧ ∀ m, kind a1 p ≠ .varRead m := by unfold kind; split <;> simp

/-- the patch has signals, whatever the other objects do and whatever messages come -/
theorem signals (a1 : ℝ) {μ : Type} (W : World ℝ μ) (log : ℕ → List (Sent μ)) : ∃ v, Solves W (patch a1) log v :=
  exists_signals _ _ _ (fun p => rank.getD p 0) ranked (plain a1) (by decide +kernel) W log

section
variable {μ : Type} {W : World ℝ μ} {log : ℕ → List (Sent μ)} {v : ℕ → ℕ → ℕ → ℝ} {a1 : ℝ}

/-- tabosc4~, object 0: *~ -/
theorem n0 (h : Solves W (patch a1) log v) (t : ℕ) : v 0 0 t = v 20 0 t * (held W 0 (received (log t) [⟨15, 0, 0, 1, .c⟩])) := by
  have := h 0 (by simp [patch, ofConns])
  simp [Obeys, patch, ofConns, kind, conns, Conn.into, inSum, operand, hasSignal, World.op, World.fn, irOp, irFn, held_nil] at this
  simpa using this t

/-- tabosc4~, object 4: outlet~ -/
theorem o0 (t : ℕ) : inSum v ((patch a1).ins 4 0) t = v 8 0 t := by
  simp [patch, ofConns, conns, Conn.into, inSum]

/-- tabosc4~, object 5: -~ -/
theorem n5 (h : Solves W (patch a1) log v) (t : ℕ) : v 5 0 t = v 13 0 t - v 14 0 t := by
  have := h 5 (by simp [patch, ofConns])
  simp [Obeys, patch, ofConns, kind, conns, Conn.into, inSum, operand, hasSignal, World.op, World.fn, irOp, irFn, held_nil] at this
  simpa using this t

/-- tabosc4~, object 6: -~ -/
theorem n6 (h : Solves W (patch a1) log v) (t : ℕ) : v 6 0 t = v 0 0 t - v 9 0 t := by
  have := h 6 (by simp [patch, ofConns])
  simp [Obeys, patch, ofConns, kind, conns, Conn.into, inSum, operand, hasSignal, World.op, World.fn, irOp, irFn, held_nil] at this
  simpa using this t

/-- tabosc4~, object 7: *~ -/
theorem n7 (h : Solves W (patch a1) log v) (t : ℕ) : v 7 0 t = v 5 0 t * v 6 0 t := by
  have := h 7 (by simp [patch, ofConns])
  simp [Obeys, patch, ofConns, kind, conns, Conn.into, inSum, operand, hasSignal, World.op, World.fn, irOp, irFn, held_nil] at this
  simpa using this t

/-- tabosc4~, object 8: +~ -/
theorem n8 (h : Solves W (patch a1) log v) (t : ℕ) : v 8 0 t = v 14 0 t + v 7 0 t := by
  have := h 8 (by simp [patch, ofConns])
  simp [Obeys, patch, ofConns, kind, conns, Conn.into, inSum, operand, hasSignal, World.op, World.fn, irOp, irFn, held_nil] at this
  simpa using this t

/-- tabosc4~, object 10: pd @hv_obj __floor~f -/
theorem n9 (h : Solves W (patch a1) log v) (t : ℕ) : v 9 0 t = W.un "floor" (v 0 0 t) := by
  have := h 9 (by simp [patch, ofConns])
  simp [Obeys, patch, ofConns, kind, conns, Conn.into, inSum, operand, hasSignal, World.op, World.fn, irOp, irFn, held_nil] at this
  simpa using this t

/-- tabosc4~, object 13: pd @hv_obj __var_k~i 1 -/
theorem n12 (h : Solves W (patch a1) log v) (t : ℕ) : v 12 0 t = 1 := by
  have := h 12 (by simp [patch, ofConns])
  simp [Obeys, patch, ofConns, kind, conns, Conn.into, inSum, operand, hasSignal, World.op, World.fn, irOp, irFn, held_nil] at this
  simpa using this t

end

end Verif.Sig.Tabosc4
