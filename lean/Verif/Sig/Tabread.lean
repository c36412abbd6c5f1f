import Verif.Sig
/-! Generated by `tools/pdsig.py tabread~ 1` from hvcc/interpreters/pd2hv/libs/pd/tabread~.pd (and the library objects in it). -/
namespace Verif.Sig.Tabread
open Verif.Reduce

/-- the objects -/
noncomputable def kind (a1 : ℝ) : ℕ → Kind ℝ
  | 0 => .other "outlet"  -- tabread~, object 0: outlet~
  | 1 => .other "__cast~fi"  -- tabread~, object 1: pd @hv_obj __cast~fi
  | 2 => .binop "max" 0  -- tabread~, object 3: max~ 0
  | 3 => .other "message"  -- tabread~, object 4: pd @hv_obj system
  | 4 => .binop "min" 0  -- tabread~, object 5: min~
  | 5 => .other "message"  -- tabread~, object 7: table \$1 size
  | 6 => .other "__tabread~if"  -- tabread~, object 8: pd @hv_obj __tabread~if \$1
  | 7 => .other "message"  -- tabread~, object 9: pd @hv_obj __switchcase set
  | 8 => .other "message"  -- tabread~, object 12: pd @hv_obj slice 1 1
  | 9 => .other "message"  -- tabread~, object 13: pd @hv_obj __var \$1
  | 10 => .other "message"  -- tabread~, object 14: - 1
  | 11 => .other "message"  -- tabread~, object 15: loadbang -1
  | 12 => .other "inlet"  -- tabread~, object 16: inlet~ -~>
  | _ => .other ""

/-- the signal objects that are not operators, with their names and numeric arguments -/
noncomputable def special (a1 : ℝ) : List (ℕ × String × List ℝ) := [(1, "__cast~fi", []), (6, "__tabread~if", [a1])]

/-- the connections -/
def conns : List Conn := [⟨1, 0, 6, 0, .f⟩, ⟨2, 0, 1, 0, .f⟩, ⟨3, 0, 10, 0, .c⟩, ⟨4, 0, 2, 0, .f⟩, ⟨5, 0, 3, 0, .c⟩, ⟨6, 0, 0, 0, .f⟩, ⟨7, 0, 8, 0, .c⟩, ⟨8, 0, 6, 1, .c⟩, ⟨8, 0, 9, 0, .c⟩, ⟨9, 0, 5, 0, .c⟩, ⟨10, 0, 4, 1, .c⟩, ⟨11, 0, 9, 0, .c⟩, ⟨12, 0, 4, 0, .f⟩, ⟨12, 0, 7, 0, .f⟩]

/-- tabread~.pd -/
noncomputable def patch (a1 : ℝ) : Graph ℝ := ofConns (List.range 13) (kind a1) conns

/-- inlet 0 -/
abbrev in0 : ℕ := 12
/-- outlet 0 -/
abbrev out0 : ℕ := 0

/-- an order of evaluation -/
def rank : List ℕ := [6, 4, 3, 1, 2, 1, 5, 2, 1, 1, 1, 1, 1]

theorem ranked : ∀ c ∈ conns, c.ty = .f → rank.getD c.src 0 < rank.getD c.dst 0 := by decide +kernel

theorem plain (a1 : ℝ) (p : ℕ) : (∀ m, (kind a1 p) ≠ .receive m) ∧ ∀ m, kind a1 p ≠ .varRead m := by unfold kind; split <;> simp

/-- the patch has signals, whatever the other objects do and whatever messages come -/
theorem signals (a1 : ℝ) {μ : Type} (W : World ℝ μ) (log : ℕ → List (Sent μ)) : ∃ v, Solves W (patch a1) log v :=
  exists_signals _ _ _ (fun p => rank.getD p 0) ranked (plain a1) (by decide +kernel) W log

section
variable {μ : Type} {W : World ℝ μ} {log : ℕ → List (Sent μ)} {v : ℕ → ℕ → ℕ → ℝ} {a1 : ℝ}

/-- tabread~, object 0: outlet~ -/
theorem o0 (t : ℕ) : inSum v ((patch a1).ins 0 0) t = v 6 0 t := by
  simp [patch, ofConns, conns, Conn.into, inSum]

/-- tabread~, object 3: max~ 0 -/
theorem n2 (h : Solves W (patch a1) log v) (t : ℕ) : v 2 0 t = W.bin "max" (v 4 0 t) 0 := by
  have := h 2 (by simp [patch, ofConns])
  simp [Obeys, patch, ofConns, kind, conns, Conn.into, inSum, operand, hasSignal, World.op, World.fn, irOp, irFn, held_nil] at this
  simpa using this t

/-- tabread~, object 5: min~ -/
theorem n4 (h : Solves W (patch a1) log v) (t : ℕ) : v 4 0 t = W.bin "min" (v 12 0 t) (held W 0 (received (log t) [⟨10, 0, 4, 1, .c⟩])) := by
  have := h 4 (by simp [patch, ofConns])
  simp [Obeys, patch, ofConns, kind, conns, Conn.into, inSum, operand, hasSignal, World.op, World.fn, irOp, irFn, held_nil] at this
  simpa using this t

end

end Verif.Sig.Tabread
