import Verif.Sig
/-! Generated by `tools/pdsig.py mtof~ 0` from hvcc/interpreters/pd2hv/libs/pd/mtof~.pd (and the library objects in it). -/
namespace Verif.Sig.Mtof
open Verif.Reduce

/-- the objects -/
noncomputable def kind : ℕ → Kind ℝ
  | 0 => .other "outlet"  -- mtof~, object 0: outlet~
  | 1 => .irUn "__exp~f"  -- exp~, object 2: pd @hv_obj __exp~f
  | 2 => .other "inlet"  -- mtof~, object 2: inlet~
  | 3 => .binop "*" 0.057762265046662  -- mtof~, object 3: *~ 0.057762265046662
  | 4 => .binop "*" 8.175798915643707  -- mtof~, object 4: *~ 8.175798915643707
  | _ => .other ""

/-- the signal objects that are not operators, with their names and numeric arguments -/
noncomputable def special : List (ℕ × String × List ℝ) := []

/-- the connections -/
def conns : List Conn := [⟨1, 0, 4, 0, .f⟩, ⟨2, 0, 3, 0, .f⟩, ⟨3, 0, 1, 0, .f⟩, ⟨4, 0, 0, 0, .f⟩]

/-- mtof~.pd -/
noncomputable def patch : Graph ℝ := ofConns (List.range 5) (kind) conns

/-- inlet 0 -/
abbrev in0 : ℕ := 2
/-- outlet 0 -/
abbrev out0 : ℕ := 0

/-- an order of evaluation -/
def rank : List ℕ := [5, 3, 1, 2, 4]

theorem ranked : ∀ c ∈ conns, c.ty = .f → rank.getD c.src 0 < rank.getD c.dst 0 := by decide +kernel

theorem plain (p : ℕ) : (∀ m, (kind p) ≠ .receive m) ∧ ∀ m, kind p ≠ .varRead m := by unfold kind; split <;> simp

/-- the patch has signals, whatever the other objects do and whatever messages come -/
theorem signals {μ : Type} (W : World ℝ μ) (log : ℕ → List (Sent μ)) : ∃ v, Solves W patch log v :=
  exists_signals _ _ _ (fun p => rank.getD p 0) ranked (plain) (by decide +kernel) W log

section
variable {μ : Type} {W : World ℝ μ} {log : ℕ → List (Sent μ)} {v : ℕ → ℕ → ℕ → ℝ}

/-- mtof~, object 0: outlet~ -/
theorem o0 (t : ℕ) : inSum v (patch.ins 0 0) t = v 4 0 t := by
  simp [patch, ofConns, conns, Conn.into, inSum]

/-- exp~, object 2: pd @hv_obj __exp~f -/
theorem n1 (h : Solves W patch log v) (t : ℕ) : v 1 0 t = W.un "exp" (v 3 0 t) := by
  have := h 1 (by simp [patch, ofConns])
  simp [Obeys, patch, ofConns, kind, conns, Conn.into, inSum, operand, hasSignal, World.op, World.fn, irOp, irFn, held_nil] at this
  simpa using this t

/-- mtof~, object 3: *~ 0.057762265046662 -/
theorem n3 (h : Solves W patch log v) (t : ℕ) : v 3 0 t = v 2 0 t * 0.057762265046662 := by
  have := h 3 (by simp [patch, ofConns])
  simp [Obeys, patch, ofConns, kind, conns, Conn.into, inSum, operand, hasSignal, World.op, World.fn, irOp, irFn, held_nil] at this
  simpa using this t

/-- mtof~, object 4: *~ 8.175798915643707 -/
theorem n4 (h : Solves W patch log v) (t : ℕ) : v 4 0 t = v 1 0 t * 8.175798915643707 := by
  have := h 4 (by simp [patch, ofConns])
  simp [Obeys, patch, ofConns, kind, conns, Conn.into, inSum, operand, hasSignal, World.op, World.fn, irOp, irFn, held_nil] at this
  simpa using this t

end

end Verif.Sig.Mtof
