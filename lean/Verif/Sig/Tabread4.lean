import Verif.Sig
/-! Generated by `tools/pdsig.py tabread4~ 1` from hvcc/interpreters/pd2hv/libs/pd/tabread4~.pd (and the library objects in it). -/
namespace Verif.Sig.Tabread4
open Verif.Reduce

/-- the objects -/
noncomputable def kind (a1 : ℝ) : ℕ → Kind ℝ
  | 0 => .other "outlet"  -- tabread4~, object 0: outlet~
  | 1 => .binop "-" 0  -- tabread4~, object 1: -~
  | 2 => .binop "-" 0  -- tabread4~, object 2: -~
  | 3 => .binop "*" 0  -- tabread4~, object 3: *~
  | 4 => .binop "+" 0  -- tabread4~, object 4: +~
  | 5 => .other "__cast~fi"  -- tabread4~, object 6: pd @hv_obj __cast~fi
  | 6 => .other "__add~i"  -- tabread4~, object 7: pd @hv_obj __add~i
  | 7 => .varK 1  -- tabread4~, object 8: pd @hv_obj __var_k~i 1
  | 8 => .binop "max" 0  -- tabread4~, object 10: max~ 0
  | 9 => .other "message"  -- tabread4~, object 11: pd @hv_obj system
  | 10 => .binop "min" 0  -- tabread4~, object 12: min~
  | 11 => .other "message"  -- tabread4~, object 13: - 2
  | 12 => .other "message"  -- tabread4~, object 15: table \$1 size
  | 13 => .other "__tabread~if"  -- tabread4~, object 16: pd @hv_obj __tabread~if \$1
  | 14 => .other "__tabread~if"  -- tabread4~, object 17: pd @hv_obj __tabread~if \$1
  | 15 => .other "message"  -- tabread4~, object 18: pd @hv_obj __switchcase set
  | 16 => .other "message"  -- tabread4~, object 21: pd @hv_obj slice 1 1
  | 17 => .other "message"  -- tabread4~, object 22: pd @hv_obj __var \$1
  | 18 => .other "message"  -- tabread4~, object 23: loadbang -1
  | 19 => .irUn "__floor~f"  -- tabread4~, object 24: pd @hv_obj __floor~f
  | 20 => .other "inlet"  -- tabread4~, object 25: inlet
  | 21 => .other "inlet"  -- tabread4~, object 27: inlet~ -~>
  | _ => .other ""

/-- the signal objects that are not operators, with their names and numeric arguments -/
noncomputable def special (a1 : ℝ) : List (ℕ × String × List ℝ) := [(5, "__cast~fi", []), (6, "__add~i", []), (13, "__tabread~if", [a1]), (14, "__tabread~if", [a1])]

/-- the connections -/
def conns : List Conn := [⟨1, 0, 3, 0, .f⟩, ⟨2, 0, 3, 1, .f⟩, ⟨3, 0, 4, 1, .f⟩, ⟨4, 0, 0, 0, .f⟩, ⟨5, 0, 14, 0, .f⟩, ⟨5, 0, 6, 0, .f⟩, ⟨6, 0, 13, 0, .f⟩, ⟨7, 0, 6, 1, .f⟩, ⟨8, 0, 2, 0, .f⟩, ⟨8, 0, 19, 0, .f⟩, ⟨9, 0, 11, 0, .c⟩, ⟨10, 0, 8, 0, .f⟩, ⟨11, 0, 10, 1, .c⟩, ⟨12, 0, 9, 0, .c⟩, ⟨13, 0, 1, 0, .f⟩, ⟨14, 0, 4, 0, .f⟩, ⟨14, 0, 1, 1, .f⟩, ⟨15, 0, 16, 0, .c⟩, ⟨16, 0, 13, 1, .c⟩, ⟨16, 0, 14, 1, .c⟩, ⟨16, 0, 17, 0, .c⟩, ⟨17, 0, 12, 0, .c⟩, ⟨18, 0, 17, 0, .c⟩, ⟨19, 0, 2, 1, .f⟩, ⟨19, 0, 5, 0, .f⟩, ⟨21, 0, 10, 0, .f⟩, ⟨21, 0, 15, 0, .f⟩]

/-- tabread4~.pd -/
noncomputable def patch (a1 : ℝ) : Graph ℝ := ofConns (List.range 22) (kind a1) conns

/-- inlet 0 -/
abbrev in0 : ℕ := 21
/-- inlet 1 -/
abbrev in1 : ℕ := 20
/-- outlet 0 -/
abbrev out0 : ℕ := 0

/-- an order of evaluation -/
def rank : List ℕ := [11, 8, 5, 9, 10, 5, 6, 1, 3, 1, 2, 1, 1, 7, 6, 2, 1, 1, 1, 4, 1, 1]

theorem ranked : ∀ c ∈ conns, c.ty = .f → rank.getD c.src 0 < rank.getD c.dst 0 := by decide +kernel

theorem plain (a1 : ℝ) (p : ℕ) : (∀ m, (kind a1 p) ≠ .receive m) ∧ ∀ m, kind a1 p ≠ .varRead m := by unfold kind; split <;> simp

/-- the patch has signals, whatever the other objects do and whatever messages come -/
theorem signals (a1 : ℝ) {μ : Type} (W : World ℝ μ) (log : ℕ → List (Sent μ)) : ∃ v, Solves W (patch a1) log v :=
  exists_signals _ _ _ (fun p => rank.getD p 0) ranked (plain a1) (by decide +kernel) W log

section
variable {μ : Type} {W : World ℝ μ} {log : ℕ → List (Sent μ)} {v : ℕ → ℕ → ℕ → ℝ} {a1 : ℝ}

/-- tabread4~, object 0: outlet~ -/
theorem o0 (t : ℕ) : inSum v ((patch a1).ins 0 0) t = v 4 0 t := by
  simp [patch, ofConns, conns, Conn.into, inSum]

/-- tabread4~, object 1: -~ -/
theorem n1 (h : Solves W (patch a1) log v) (t : ℕ) : v 1 0 t = v 13 0 t - v 14 0 t := by
  have := h 1 (by simp [patch, ofConns])
  simp [Obeys, patch, ofConns, kind, conns, Conn.into, inSum, operand, hasSignal, World.op, World.fn, irOp, irFn, held_nil] at this
  simpa using this t

/-- tabread4~, object 2: -~ -/
theorem n2 (h : Solves W (patch a1) log v) (t : ℕ) : v 2 0 t = v 8 0 t - v 19 0 t := by
  have := h 2 (by simp [patch, ofConns])
  simp [Obeys, patch, ofConns, kind, conns, Conn.into, inSum, operand, hasSignal, World.op, World.fn, irOp, irFn, held_nil] at this
  simpa using this t

/-- tabread4~, object 3: *~ -/
theorem n3 (h : Solves W (patch a1) log v) (t : ℕ) : v 3 0 t = v 1 0 t * v 2 0 t := by
  have := h 3 (by simp [patch, ofConns])
  simp [Obeys, patch, ofConns, kind, conns, Conn.into, inSum, operand, hasSignal, World.op, World.fn, irOp, irFn, held_nil] at this
  simpa using this t

/-- tabread4~, object 4: +~ -/
theorem n4 (h : Solves W (patch a1) log v) (t : ℕ) : v 4 0 t = v 14 0 t + v 3 0 t := by
  have := h 4 (by simp [patch, ofConns])
  simp [Obeys, patch, ofConns, kind, conns, Conn.into, inSum, operand, hasSignal, World.op, World.fn, irOp, irFn, held_nil] at this
  simpa using this t

/-- tabread4~, object 8: pd @hv_obj __var_k~i 1 -/
theorem n7 (h : Solves W (patch a1) log v) (t : ℕ) : v 7 0 t = 1 := by
  have := h 7 (by simp [patch, ofConns])
  simp [Obeys, patch, ofConns, kind, conns, Conn.into, inSum, operand, hasSignal, World.op, World.fn, irOp, irFn, held_nil] at this
  simpa using this t

/-- tabread4~, object 10: max~ 0 -/
theorem n8 (h : Solves W (patch a1) log v) (t : ℕ) : v 8 0 t = W.bin "max" (v 10 0 t) 0 := by
  have := h 8 (by simp [patch, ofConns])
  simp [Obeys, patch, ofConns, kind, conns, Conn.into, inSum, operand, hasSignal, World.op, World.fn, irOp, irFn, held_nil] at this
  simpa using this t

/-- tabread4~, object 12: min~ -/
theorem n10 (h : Solves W (patch a1) log v) (t : ℕ) : v 10 0 t = W.bin "min" (v 21 0 t) (held W 0 (received (log t) [⟨11, 0, 10, 1, .c⟩])) := by
  have := h 10 (by simp [patch, ofConns])
  simp [Obeys, patch, ofConns, kind, conns, Conn.into, inSum, operand, hasSignal, World.op, World.fn, irOp, irFn, held_nil] at this
  simpa using this t

/-- tabread4~, object 24: pd @hv_obj __floor~f -/
theorem n19 (h : Solves W (patch a1) log v) (t : ℕ) : v 19 0 t = W.un "floor" (v 8 0 t) := by
  have := h 19 (by simp [patch, ofConns])
  simp [Obeys, patch, ofConns, kind, conns, Conn.into, inSum, operand, hasSignal, World.op, World.fn, irOp, irFn, held_nil] at this
  simpa using this t

end

end Verif.Sig.Tabread4
