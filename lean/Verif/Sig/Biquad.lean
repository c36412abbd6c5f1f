import Verif.Sig
/-! Generated by `tools/pdsig.py biquad~ 5` from hvcc/interpreters/pd2hv/libs/pd/biquad~.pd (and the library objects in it). -/
namespace Verif.Sig.Biquad
open Verif.Reduce

/-- the objects -/
noncomputable def kind (a1 a2 a3 a4 a5 : ℝ) : ℕ → Kind ℝ
  | 0 => .other "outlet"  -- biquad~, object 0: outlet~
  | 1 => .other "message"  -- biquad~, object 1: * -1
  | 2 => .other "message"  -- biquad~, object 2: * -1
  | 3 => .other "biquad"  -- biquad~, object 4: pd @hv_obj biquad \$3 \$4 \$5 0 0
  | 4 => .other "message"  -- biquad~, object 10: pd @hv_obj __slice 0 1
  | 5 => .other "message"  -- biquad~, object 11: pd @hv_obj __slice 1 1
  | 6 => .other "message"  -- biquad~, object 12: pd @hv_obj __slice 2 1
  | 7 => .other "message"  -- biquad~, object 13: pd @hv_obj __slice 3 1
  | 8 => .other "message"  -- biquad~, object 14: pd @hv_obj __slice 4 1
  | 9 => .other "message"  -- biquad~, object 15: loadbang
  | 10 => .other "message"  -- biquad~, object 17: pd @hv_obj __var \$1
  | 11 => .other "message"  -- biquad~, object 18: pd @hv_obj __var \$2
  | 12 => .other "inlet"  -- biquad~, object 19: inlet~ -~>
  | _ => .other ""

/-- the signal objects that are not operators, with their names and numeric arguments -/
noncomputable def special (a1 a2 a3 a4 a5 : ℝ) : List (ℕ × String × List ℝ) := [(3, "biquad", [a3, a4, a5, 0, 0])]

/-- the connections -/
def conns : List Conn := [⟨1, 0, 3, 4, .c⟩, ⟨2, 0, 3, 5, .c⟩, ⟨3, 0, 0, 0, .f⟩, ⟨4, 0, 1, 0, .c⟩, ⟨5, 0, 2, 0, .c⟩, ⟨6, 0, 3, 1, .c⟩, ⟨7, 0, 3, 2, .c⟩, ⟨8, 0, 3, 3, .c⟩, ⟨9, 0, 10, 0, .c⟩, ⟨9, 0, 11, 0, .c⟩, ⟨10, 0, 1, 0, .c⟩, ⟨11, 0, 2, 0, .c⟩, ⟨12, 0, 4, 0, .f⟩, ⟨12, 0, 5, 0, .f⟩, ⟨12, 0, 6, 0, .f⟩, ⟨12, 0, 7, 0, .f⟩, ⟨12, 0, 8, 0, .f⟩, ⟨12, 0, 3, 0, .f⟩]

/-- biquad~.pd -/
noncomputable def patch (a1 a2 a3 a4 a5 : ℝ) : Graph ℝ := ofConns (List.range 13) (kind a1 a2 a3 a4 a5) conns

/-- inlet 0 -/
abbrev in0 : ℕ := 12
/-- outlet 0 -/
abbrev out0 : ℕ := 0

/-- an order of evaluation -/
def rank : List ℕ := [3, 1, 1, 2, 2, 2, 2, 2, 2, 1, 1, 1, 1]

theorem ranked : ∀ c ∈ conns, c.ty = .f → rank.getD c.src 0 < rank.getD c.dst 0 := by decide +kernel

theorem plain (a1 a2 a3 a4 a5 : ℝ) (p : ℕ) : (∀ m, (kind a1 a2 a3 a4 a5 p) ≠ .receive m) ∧ ∀ m, kind a1 a2 a3 a4 a5 p ≠ .varRead m := by unfold kind; split <;> simp

/-- the patch has signals, whatever the other objects do and whatever messages come -/
theorem signals (a1 a2 a3 a4 a5 : ℝ) {μ : Type} (W : World ℝ μ) (log : ℕ → List (Sent μ)) : ∃ v, Solves W (patch a1 a2 a3 a4 a5) log v :=
  exists_signals _ _ _ (fun p => rank.getD p 0) ranked (plain a1 a2 a3 a4 a5) (by decide +kernel) W log

section
variable {μ : Type} {W : World ℝ μ} {log : ℕ → List (Sent μ)} {v : ℕ → ℕ → ℕ → ℝ} {a1 a2 a3 a4 a5 : ℝ}

/-- biquad~, object 0: outlet~ -/
theorem o0 (t : ℕ) : inSum v ((patch a1 a2 a3 a4 a5).ins 0 0) t = v 3 0 t := by
  simp [patch, ofConns, conns, Conn.into, inSum]

end

end Verif.Sig.Biquad
