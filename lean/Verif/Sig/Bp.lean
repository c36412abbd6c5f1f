import Verif.Sig
/-! Generated by `tools/pdsig.py bp~ 2` from hvcc/interpreters/pd2hv/libs/pd/bp~.pd (and the library objects in it). -/
namespace Verif.Sig.Bp
open Verif.Reduce

/-- the objects -/
noncomputable def kind (a1 a2 : ℝ) : ℕ → Kind ℝ
  | 0 => .other "inlet"  -- bp~, object 0: inlet~
  | 1 => .other "inlet"  -- bp~, object 1: inlet fc
  | 2 => .other "outlet"  -- bp~, object 2: outlet~
  | 3 => .other "message"  -- bp~, object 3: /
  | 4 => .other "message"  -- bp~, object 4: samplerate~
  | 5 => .other "message"  -- bp~, object 5: loadbang
  | 6 => .other "message"  -- bp~, object 6: f \$1
  | 7 => .other "biquad"  -- bp~, object 7: pd @hv_obj biquad
  | 8 => .other "message"  -- bp~, object 8: * 6.28319
  | 9 => .other "inlet"  -- bp~, object 11: inlet q
  | 10 => .other "message"  -- bp~, object 12: f \$2
  | 11 => .other "message"  -- bp~, object 13: t a a a
  | 12 => .other "message"  -- bp~, object 14: /
  | 13 => .other "message"  -- bp~, object 15: * -1
  | 14 => .other "message"  -- bp~, object 16: + 1
  | 15 => .other "message"  -- bp~, object 20: cos
  | 16 => .other "message"  -- bp~, object 21: * 2
  | 17 => .other "message"  -- bp~, object 22: *
  | 18 => .other "message"  -- bp~, object 24: t b a
  | 19 => .other "message"  -- bp~, object 26: * -1
  | 20 => .other "message"  -- bp~, object 27: * -1
  | 21 => .other "message"  -- bp~, object 28: * -1
  | 22 => .other "message"  -- bp~, object 29: * 2
  | 23 => .other "message"  -- bp~, object 30: *
  | 24 => .other "message"  -- bp~, object 31: t a a a
  | 25 => .other "message"  -- bp~, object 32: pow 2
  | 26 => .other "message"  -- bp~, object 33: +
  | 27 => .other "message"  -- bp~, object 34: *
  | 28 => .other "message"  -- bp~, object 35: t a a a
  | 29 => .other "message"  -- bp~, object 39: max 0.001
  | 30 => .other "message"  -- bp~, object 40: min 1
  | 31 => .other "message"  -- bp~, object 41: t a a a
  | _ => .other ""

/-- the signal objects that are not operators, with their names and numeric arguments -/
noncomputable def special (a1 a2 : ℝ) : List (ℕ × String × List ℝ) := [(7, "biquad", [])]

/-- the connections -/
def conns : List Conn := [⟨0, 0, 7, 0, .f⟩, ⟨1, 0, 6, 0, .c⟩, ⟨3, 0, 24, 0, .c⟩, ⟨4, 0, 3, 1, .c⟩, ⟨5, 0, 11, 0, .c⟩, ⟨6, 0, 8, 0, .c⟩, ⟨7, 0, 2, 0, .f⟩, ⟨8, 0, 3, 0, .c⟩, ⟨9, 0, 18, 0, .c⟩, ⟨10, 0, 29, 0, .c⟩, ⟨11, 0, 6, 0, .c⟩, ⟨11, 1, 4, 0, .c⟩, ⟨11, 2, 10, 0, .c⟩, ⟨12, 0, 30, 0, .c⟩, ⟨13, 0, 14, 0, .c⟩, ⟨14, 0, 31, 0, .c⟩, ⟨15, 0, 16, 0, .c⟩, ⟨16, 0, 17, 1, .c⟩, ⟨17, 0, 21, 0, .c⟩, ⟨18, 0, 6, 0, .c⟩, ⟨18, 1, 10, 0, .c⟩, ⟨19, 0, 20, 0, .c⟩, ⟨20, 0, 7, 5, .c⟩, ⟨21, 0, 7, 4, .c⟩, ⟨22, 0, 27, 0, .c⟩, ⟨23, 0, 26, 1, .c⟩, ⟨24, 0, 12, 0, .c⟩, ⟨24, 1, 15, 0, .c⟩, ⟨24, 2, 23, 1, .c⟩, ⟨25, 0, 19, 0, .c⟩, ⟨26, 0, 27, 1, .c⟩, ⟨27, 0, 7, 1, .c⟩, ⟨28, 0, 22, 0, .c⟩, ⟨28, 1, 26, 0, .c⟩, ⟨28, 2, 13, 0, .c⟩, ⟨29, 0, 12, 1, .c⟩, ⟨30, 0, 28, 0, .c⟩, ⟨31, 0, 23, 0, .c⟩, ⟨31, 1, 17, 0, .c⟩, ⟨31, 2, 25, 0, .c⟩]

/-- bp~.pd -/
noncomputable def patch (a1 a2 : ℝ) : Graph ℝ := ofConns (List.range 32) (kind a1 a2) conns

/-- inlet 0 -/
abbrev in0 : ℕ := 0
/-- inlet 1 -/
abbrev in1 : ℕ := 1
/-- inlet 2 -/
abbrev in2 : ℕ := 9
/-- outlet 0 -/
abbrev out0 : ℕ := 2

/-- an order of evaluation -/
def rank : List ℕ := [1, 1, 3, 1, 1, 1, 1, 2, 1, 1, 1, 1, 1, 1, 1, 1, 1, 1, 1, 1, 1, 1, 1, 1, 1, 1, 1, 1, 1, 1, 1, 1]

theorem ranked : ∀ c ∈ conns, c.ty = .f → rank.getD c.src 0 < rank.getD c.dst 0 := by decide +kernel

theorem plain (a1 a2 : ℝ) (p : ℕ) : (∀ m, (kind a1 a2 p) ≠ .receive m) ∧ ∀ m, kind a1 a2 p ≠ .varRead m := by unfold kind; split <;> simp

/-- the patch has signals, whatever the other objects do and whatever messages come -/
theorem signals (a1 a2 : ℝ) {μ : Type} (W : World ℝ μ) (log : ℕ → List (Sent μ)) : ∃ v, Solves W (patch a1 a2) log v :=
  exists_signals _ _ _ (fun p => rank.getD p 0) ranked (plain a1 a2) (by decide +kernel) W log

section
variable {μ : Type} {W : World ℝ μ} {log : ℕ → List (Sent μ)} {v : ℕ → ℕ → ℕ → ℝ} {a1 a2 : ℝ}

/-- bp~, object 2: outlet~ -/
theorem o0 (t : ℕ) : inSum v ((patch a1 a2).ins 2 0) t = v 7 0 t := by
  simp [patch, ofConns, conns, Conn.into, inSum]

end

end Verif.Sig.Bp
