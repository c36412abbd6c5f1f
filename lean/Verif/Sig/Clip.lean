import Verif.Sig
/-! Generated by `tools/pdsig.py clip~ 2` from hvcc/interpreters/pd2hv/libs/pd/clip~.pd (and the library objects in it). -/
namespace Verif.Sig.Clip
open Verif.Reduce

/-- the objects -/
noncomputable def kind (a1 a2 : ℝ) : ℕ → Kind ℝ
  | 0 => .other "inlet"  -- clip~, object 0: inlet~
  | 1 => .other "inlet"  -- clip~, object 1: inlet
  | 2 => .other "inlet"  -- clip~, object 2: inlet
  | 3 => .other "outlet"  -- clip~, object 3: outlet~
  | 4 => .binop "min" a2  -- clip~, object 6: min~ \$2
  | 5 => .binop "max" a1  -- clip~, object 7: max~ \$1
  | _ => .other ""

/-- the signal objects that are not operators, with their names and numeric arguments -/
noncomputable def special (a1 a2 : ℝ) : List (ℕ × String × List ℝ) := []

/-- the connections -/
def conns : List Conn := [⟨0, 0, 4, 0, .f⟩, ⟨1, 0, 5, 1, .c⟩, ⟨2, 0, 4, 1, .c⟩, ⟨4, 0, 5, 0, .f⟩, ⟨5, 0, 3, 0, .f⟩]

/-- clip~.pd -/
noncomputable def patch (a1 a2 : ℝ) : Graph ℝ := ofConns (List.range 6) (kind a1 a2) conns

/-- inlet 0 -/
abbrev in0 : ℕ := 0
/-- inlet 1 -/
abbrev in1 : ℕ := 1
/-- inlet 2 -/
abbrev in2 : ℕ := 2
/-- outlet 0 -/
abbrev out0 : ℕ := 3

/-- an order of evaluation -/
def rank : List ℕ := [1, 1, 1, 4, 2, 3]

theorem ranked : ∀ c ∈ conns, c.ty = .f → rank.getD c.src 0 < rank.getD c.dst 0 := by decide +kernel

theorem plain (a1 a2 : ℝ) (p : ℕ) : (∀ m, (kind a1 a2 p) ≠ .receive m) ∧ ∀ m, kind a1 a2 p ≠ .varRead m := by unfold kind; split <;> simp

/-- the patch has signals, whatever the other objects do and whatever messages come -/
theorem signals (a1 a2 : ℝ) {μ : Type} (W : World ℝ μ) (log : ℕ → List (Sent μ)) : ∃ v, Solves W (patch a1 a2) log v :=
  exists_signals _ _ _ (fun p => rank.getD p 0) ranked (plain a1 a2) (by decide +kernel) W log

section
variable {μ : Type} {W : World ℝ μ} {log : ℕ → List (Sent μ)} {v : ℕ → ℕ → ℕ → ℝ} {a1 a2 : ℝ}

/-- clip~, object 3: outlet~ -/
theorem o0 (t : ℕ) : inSum v ((patch a1 a2).ins 3 0) t = v 5 0 t := by
  simp [patch, ofConns, conns, Conn.into, inSum]

/-- clip~, object 6: min~ \$2 -/
theorem n4 (h : Solves W (patch a1 a2) log v) (t : ℕ) : v 4 0 t = W.bin "min" (v 0 0 t) (held W a2 (received (log t) [⟨2, 0, 4, 1, .c⟩])) := by
  have := h 4 (by simp [patch, ofConns])
  simp [Obeys, patch, ofConns, kind, conns, Conn.into, inSum, operand, hasSignal, World.op, World.fn, irOp, irFn, held_nil] at this
  simpa using this t

/-- clip~, object 7: max~ \$1 -/
theorem n5 (h : Solves W (patch a1 a2) log v) (t : ℕ) : v 5 0 t = W.bin "max" (v 4 0 t) (held W a1 (received (log t) [⟨1, 0, 5, 1, .c⟩])) := by
  have := h 5 (by simp [patch, ofConns])
  simp [Obeys, patch, ofConns, kind, conns, Conn.into, inSum, operand, hasSignal, World.op, World.fn, irOp, irFn, held_nil] at this
  simpa using this t

end

end Verif.Sig.Clip
