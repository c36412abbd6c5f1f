import Verif.Sig
/-! Generated by `tools/pdsig.py hip~ 1` from hvcc/interpreters/pd2hv/libs/pd/hip~.pd (and the library objects in it). -/
namespace Verif.Sig.Hip
open Verif.Reduce

/-- the objects -/
noncomputable def kind (a1 : ℝ) : ℕ → Kind ℝ
  | 0 => .other "message"  -- hip~, object 1: + 1
  | 1 => .other "message"  -- hip~, object 2: * 0.5
  | 2 => .binop "*" 0  -- hip~, object 3: *~
  | 3 => .other "message"  -- hip~, object 4: 1 \$1
  | 4 => .other "message"  -- hip~, object 5: -
  | 5 => .other "message"  -- hip~, object 6: clip 0 1
  | 6 => .var 1  -- sig~, object 3: pd @hv_obj var \$1
  | 7 => .other "__del1~f"  -- rzero~, object 3: pd @hv_obj __del1~f
  | 8 => .binop "*" 0  -- rzero~, object 4: *~
  | 9 => .binop "-" 0  -- rzero~, object 5: -~
  | 10 => .var 0  -- sig~, object 3: pd @hv_obj var \$1
  | 11 => .other "message"  -- hip~, object 10: loadbang
  | 12 => .other "message"  -- hip~, object 11: f \$1
  | 13 => .other "message"  -- hip~, object 12: t a a
  | 14 => .other "outlet"  -- hip~, object 13: outlet~
  | 15 => .other "message"  -- hip~, object 14: t a a
  | 16 => .other "inlet"  -- hip~, object 15: inlet~
  | 17 => .other "inlet"  -- hip~, object 16: inlet fc
  | 18 => .other "__rpole~f"  -- hip~, object 17: pd @hv_obj __rpole~f
  | 19 => .other "message"  -- hip~, object 18: * -1
  | 20 => .other "message"  -- hip~, object 19: max 1
  | 21 => .other "message"  -- hip~, object 20: samplerate~
  | 22 => .other "message"  -- hip~, object 21: * 6.28319
  | 23 => .other "message"  -- hip~, object 22: /
  | _ => .other ""

/-- the signal objects that are not operators, with their names and numeric arguments -/
noncomputable def special (a1 : ℝ) : List (ℕ × String × List ℝ) := [(7, "__del1~f", []), (18, "__rpole~f", [])]

/-- the connections -/
def conns : List Conn := [⟨6, 0, 8, 1, .f⟩, ⟨7, 0, 8, 0, .f⟩, ⟨8, 0, 9, 1, .f⟩, ⟨9, 0, 2, 0, .f⟩, ⟨10, 0, 18, 1, .f⟩, ⟨0, 0, 1, 0, .c⟩, ⟨1, 0, 2, 1, .c⟩, ⟨2, 0, 14, 0, .f⟩, ⟨3, 0, 4, 0, .c⟩, ⟨4, 0, 5, 0, .c⟩, ⟨5, 0, 15, 0, .c⟩, ⟨11, 0, 13, 0, .c⟩, ⟨12, 0, 20, 0, .c⟩, ⟨13, 0, 12, 0, .c⟩, ⟨13, 1, 21, 0, .c⟩, ⟨15, 0, 19, 0, .c⟩, ⟨15, 1, 0, 0, .c⟩, ⟨16, 0, 18, 0, .f⟩, ⟨17, 0, 12, 0, .c⟩, ⟨18, 0, 7, 0, .f⟩, ⟨18, 0, 9, 0, .f⟩, ⟨19, 0, 10, 0, .c⟩, ⟨20, 0, 22, 0, .c⟩, ⟨21, 0, 23, 1, .c⟩, ⟨22, 0, 23, 0, .c⟩, ⟨23, 0, 3, 0, .c⟩]

/-- hip~.pd -/
noncomputable def patch (a1 : ℝ) : Graph ℝ := ofConns (List.range 24) (kind a1) conns

/-- inlet 0 -/
abbrev in0 : ℕ := 16
/-- inlet 1 -/
abbrev in1 : ℕ := 17
/-- outlet 0 -/
abbrev out0 : ℕ := 14

/-- an order of evaluation -/
def rank : List ℕ := [1, 1, 6, 1, 1, 1, 1, 3, 4, 5, 1, 1, 1, 1, 7, 1, 1, 1, 2, 1, 1, 1, 1, 1]

theorem ranked : ∀ c ∈ conns, c.ty = .f → rank.getD c.src 0 < rank.getD c.dst 0 := by decide +kernel

theorem plain (a1 : ℝ) (p : ℕ) : (∀ m, (kind a1 p) ≠ .receive m) ∧ ∀ m, kind a1 p ≠ .varRead m := by unfold kind; split <;> simp

/-- the patch has signals, whatever the other objects do and whatever messages come -/
theorem signals (a1 : ℝ) {μ : Type} (W : World ℝ μ) (log : ℕ → List (Sent μ)) : ∃ v, Solves W (patch a1) log v :=
  exists_signals _ _ _ (fun p => rank.getD p 0) ranked (plain a1) (by decide +kernel) W log

section
variable {μ : Type} {W : World ℝ μ} {log : ℕ → List (Sent μ)} {v : ℕ → ℕ → ℕ → ℝ} {a1 : ℝ}

/-- hip~, object 3: *~ -/
theorem n2 (h : Solves W (patch a1) log v) (t : ℕ) : v 2 0 t = v 9 0 t * (held W 0 (received (log t) [⟨1, 0, 2, 1, .c⟩])) := by
  have := h 2 (by simp [patch, ofConns])
  simp [Obeys, patch, ofConns, kind, conns, Conn.into, inSum, operand, hasSignal, World.op, World.fn, irOp, irFn, held_nil] at this
  simpa using this t

/-- sig~, object 3: pd @hv_obj var \$1 -/
theorem n6 (h : Solves W (patch a1) log v) (t : ℕ) : v 6 0 t = 1 := by
  have := h 6 (by simp [patch, ofConns])
  simp [Obeys, patch, ofConns, kind, conns, Conn.into, inSum, operand, hasSignal, World.op, World.fn, irOp, irFn, held_nil] at this
  simpa using this t

/-- rzero~, object 4: *~ -/
theorem n8 (h : Solves W (patch a1) log v) (t : ℕ) : v 8 0 t = v 7 0 t * v 6 0 t := by
  have := h 8 (by simp [patch, ofConns])
  simp [Obeys, patch, ofConns, kind, conns, Conn.into, inSum, operand, hasSignal, World.op, World.fn, irOp, irFn, held_nil] at this
  simpa using this t

/-- rzero~, object 5: -~ -/
theorem n9 (h : Solves W (patch a1) log v) (t : ℕ) : v 9 0 t = v 18 0 t - v 8 0 t := by
  have := h 9 (by simp [patch, ofConns])
  simp [Obeys, patch, ofConns, kind, conns, Conn.into, inSum, operand, hasSignal, World.op, World.fn, irOp, irFn, held_nil] at this
  simpa using this t

/-- sig~, object 3: pd @hv_obj var \$1 -/
theorem n10 (h : Solves W (patch a1) log v) (t : ℕ) : v 10 0 t = (held W 0 (received (log t) [⟨19, 0, 10, 0, .c⟩])) := by
  have := h 10 (by simp [patch, ofConns])
  simp [Obeys, patch, ofConns, kind, conns, Conn.into, inSum, operand, hasSignal, World.op, World.fn, irOp, irFn, held_nil] at this
  simpa using this t

/-- hip~, object 13: outlet~ -/
theorem o0 (t : ℕ) : inSum v ((patch a1).ins 14 0) t = v 2 0 t := by
  simp [patch, ofConns, conns, Conn.into, inSum]

end

end Verif.Sig.Hip
