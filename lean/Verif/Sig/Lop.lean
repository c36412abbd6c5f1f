import Verif.Sig
/-! Generated by `tools/pdsig.py lop~ 1` from hvcc/interpreters/pd2hv/libs/pd/lop~.pd (and the library objects in it). -/
namespace Verif.Sig.Lop
open Verif.Reduce

/-- the objects -/
noncomputable def kind (a1 : ℝ) : ℕ → Kind ℝ
  | 0 => .other "message"  -- lop~, object 1: loadbang
  | 1 => .other "inlet"  -- lop~, object 2: inlet~
  | 2 => .other "message"  -- lop~, object 3: f \$1
  | 3 => .other "message"  -- lop~, [pd hz2rad], object 0: samplerate~
  | 4 => .other "message"  -- lop~, [pd hz2rad], object 1: *
  | 5 => .other "message"  -- lop~, [pd hz2rad], object 5: /
  | 6 => .other "message"  -- lop~, [pd hz2rad], object 6: 6.28319 \$1
  | 7 => .binop "*" 0  -- lop~, object 5: *~
  | 8 => .other "inlet"  -- lop~, object 6: inlet
  | 9 => .var 0  -- sig~, object 3: pd @hv_obj var \$1
  | 10 => .other "outlet"  -- lop~, object 8: outlet~
  | 11 => .other "message"  -- lop~, object 9: clip 0 1
  | 12 => .other "message"  -- lop~, object 10: t a a
  | 13 => .other "message"  -- lop~, object 11: t a a
  | 14 => .other "__rpole~f"  -- lop~, object 12: pd @hv_obj __rpole~f
  | 15 => .other "message"  -- lop~, object 13: - 1
  | _ => .other ""

/-- the signal objects that are not operators, with their names and numeric arguments -/
noncomputable def special (a1 : ℝ) : List (ℕ × String × List ℝ) := [(14, "__rpole~f", [])]

/-- the connections -/
def conns : List Conn := [⟨3, 0, 6, 0, .c⟩, ⟨4, 0, 11, 0, .c⟩, ⟨5, 0, 4, 1, .c⟩, ⟨6, 0, 5, 0, .c⟩, ⟨9, 0, 14, 1, .f⟩, ⟨0, 0, 13, 0, .c⟩, ⟨1, 0, 7, 0, .f⟩, ⟨2, 0, 4, 0, .c⟩, ⟨7, 0, 14, 0, .f⟩, ⟨8, 0, 2, 0, .c⟩, ⟨11, 0, 12, 0, .c⟩, ⟨12, 0, 7, 1, .c⟩, ⟨12, 1, 15, 0, .c⟩, ⟨13, 0, 2, 0, .c⟩, ⟨13, 1, 3, 0, .c⟩, ⟨14, 0, 10, 0, .f⟩, ⟨15, 0, 9, 0, .c⟩]

/-- lop~.pd -/
noncomputable def patch (a1 : ℝ) : Graph ℝ := ofConns (List.range 16) (kind a1) conns

/-- inlet 0 -/
abbrev in0 : ℕ := 1
/-- inlet 1 -/
abbrev in1 : ℕ := 8
/-- outlet 0 -/
abbrev out0 : ℕ := 10

/-- an order of evaluation -/
def rank : List ℕ := [1, 1, 1, 1, 1, 1, 1, 2, 1, 1, 4, 1, 1, 1, 3, 1]

theorem ranked : ∀ c ∈ conns, c.ty = .f → rank.getD c.src 0 < rank.getD c.dst 0 := by decide +kernel

theorem plain (a1 : ℝ) (p : ℕ) : (∀ m, (kind a1 p) ≠ .receive m) ∧ ∀ m, kind a1 p ≠ .varRead m := by unfold kind; split <;> simp

/-- the patch has signals, whatever the other objects do and whatever messages come -/
theorem signals (a1 : ℝ) {μ : Type} (W : World ℝ μ) (log : ℕ → List (Sent μ)) : ∃ v, Solves W (patch a1) log v :=
  exists_signals _ _ _ (fun p => rank.getD p 0) ranked (plain a1) (by decide +kernel) W log

section
variable {μ : Type} {W : World ℝ μ} {log : ℕ → List (Sent μ)} {v : ℕ → ℕ → ℕ → ℝ} {a1 : ℝ}

/-- lop~, object 5: *~ -/
theorem n7 (h : Solves W (patch a1) log v) (t : ℕ) : v 7 0 t = v 1 0 t * (held W 0 (received (log t) [⟨12, 0, 7, 1, .c⟩])) := by
  have := h 7 (by simp [patch, ofConns])
  simp [Obeys, patch, ofConns, kind, conns, Conn.into, inSum, operand, hasSignal, World.op, World.fn, irOp, irFn, held_nil] at this
  simpa using this t

/-- sig~, object 3: pd @hv_obj var \$1 -/
theorem n9 (h : Solves W (patch a1) log v) (t : ℕ) : v 9 0 t = (held W 0 (received (log t) [⟨15, 0, 9, 0, .c⟩])) := by
  have := h 9 (by simp [patch, ofConns])
  simp [Obeys, patch, ofConns, kind, conns, Conn.into, inSum, operand, hasSignal, World.op, World.fn, irOp, irFn, held_nil] at this
  simpa using this t

/-- lop~, object 8: outlet~ -/
theorem o0 (t : ℕ) : inSum v ((patch a1).ins 10 0) t = v 14 0 t := by
  simp [patch, ofConns, conns, Conn.into, inSum]

end

end Verif.Sig.Lop
