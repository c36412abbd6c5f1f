import Verif.Sig
/-! Generated by `tools/pdsig.py rmstodb~ 0` from hvcc/interpreters/pd2hv/libs/pd/rmstodb~.pd (and the library objects in it). -/
namespace Verif.Sig.Rmstodb
open Verif.Reduce

/-- the objects -/
noncomputable def kind : ℕ → Kind ℝ
  | 0 => .other "outlet"  -- rmstodb~, object 0: outlet~
  | 1 => .other "inlet"  -- rmstodb~, object 1: inlet~
  | 2 => .irUn "__log2~f"  -- rmstodb~, object 2: pd @hv_obj __log2~f
  | 3 => .binop "*" 6.020599913279624  -- rmstodb~, object 3: *~ 6.020599913279624
  | 4 => .binop "max" 0  -- rmstodb~, object 4: max~ 0
  | 5 => .binop "+" 100  -- rmstodb~, object 5: +~ 100
  | 6 => .binop "max" 0  -- rmstodb~, object 6: max~ 0
  | _ => .other ""

/-- the signal objects that are not operators, with their names and numeric arguments -/
noncomputable def special : List (ℕ × String × List ℝ) := []

/-- the connections -/
def conns : List Conn := [⟨1, 0, 4, 0, .f⟩, ⟨2, 0, 3, 0, .f⟩, ⟨3, 0, 5, 0, .f⟩, ⟨4, 0, 2, 0, .f⟩, ⟨5, 0, 6, 0, .f⟩, ⟨6, 0, 0, 0, .f⟩]

/-- rmstodb~.pd -/
noncomputable def patch : Graph ℝ := ofConns (List.range 7) (kind) conns

/-- inlet 0 -/
abbrev in0 : ℕ := 1
/-- outlet 0 -/
abbrev out0 : ℕ := 0

/-- an order of evaluation -/
def rank : List ℕ := [7, 1, 3, 4, 2, 5, 6]

theorem ranked : ∀ c ∈ conns, c.ty = .f → rank.getD c.src 0 < rank.getD c.dst 0 := by decide +kernel

theorem plain (p : ℕ) : (∀ m, (kind p) ≠ .receive m) ∧ ∀ m, kind p ≠ .varRead m := by unfold kind; split <;> simp

/-- the patch has signals, whatever the other objects do and whatever messages come -/
theorem signals {μ : Type} (W : World ℝ μ) (log : ℕ → List (Sent μ)) : ∃ v, Solves W patch log v :=
  exists_signals _ _ _ (fun p => rank.getD p 0) ranked (plain) (by decide +kernel) W log

section
variable {μ : Type} {W : World ℝ μ} {log : ℕ → List (Sent μ)} {v : ℕ → ℕ → ℕ → ℝ}

/-- rmstodb~, object 0: outlet~ -/
theorem o0 (t : ℕ) : inSum v (patch.ins 0 0) t = v 6 0 t := by
  simp [patch, ofConns, conns, Conn.into, inSum]

/-- rmstodb~, object 2: pd @hv_obj __log2~f -/
theorem n2 (h : Solves W patch log v) (t : ℕ) : v 2 0 t = W.un "log2" (v 4 0 t) := by
  have := h 2 (by simp [patch, ofConns])
  simp [Obeys, patch, ofConns, kind, conns, Conn.into, inSum, operand, hasSignal, World.op, World.fn, irOp, irFn, held_nil] at this
  simpa using this t

/-- rmstodb~, object 3: *~ 6.020599913279624 -/
theorem n3 (h : Solves W patch log v) (t : ℕ) : v 3 0 t = v 2 0 t * 6.020599913279624 := by
  have := h 3 (by simp [patch, ofConns])
  simp [Obeys, patch, ofConns, kind, conns, Conn.into, inSum, operand, hasSignal, World.op, World.fn, irOp, irFn, held_nil] at this
  simpa using this t

/-- rmstodb~, object 4: max~ 0 -/
theorem n4 (h : Solves W patch log v) (t : ℕ) : v 4 0 t = W.bin "max" (v 1 0 t) 0 := by
  have := h 4 (by simp [patch, ofConns])
  simp [Obeys, patch, ofConns, kind, conns, Conn.into, inSum, operand, hasSignal, World.op, World.fn, irOp, irFn, held_nil] at this
  simpa using this t

/-- rmstodb~, object 5: +~ 100 -/
theorem n5 (h : Solves W patch log v) (t : ℕ) : v 5 0 t = v 3 0 t + 100 := by
  have := h 5 (by simp [patch, ofConns])
  simp [Obeys, patch, ofConns, kind, conns, Conn.into, inSum, operand, hasSignal, World.op, World.fn, irOp, irFn, held_nil] at this
  simpa using this t

/-- rmstodb~, object 6: max~ 0 -/
theorem n6 (h : Solves W patch log v) (t : ℕ) : v 6 0 t = W.bin "max" (v 5 0 t) 0 := by
  have := h 6 (by simp [patch, ofConns])
  simp [Obeys, patch, ofConns, kind, conns, Conn.into, inSum, operand, hasSignal, World.op, World.fn, irOp, irFn, held_nil] at this
  simpa using this t

end

end Verif.Sig.Rmstodb
