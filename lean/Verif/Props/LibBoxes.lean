import Verif.Lib.Nbx
import Verif.Lib.Float
import Verif.Lib.Symbol
import Verif.Lib.Bng
import Verif.Lib.Abs
import Verif.Lib.Floatatom
import Verif.Lib.Symbolatom
import Verif.Dollar
/-!
# C88: boxes

`[float]`, `[symbol]`, `[floatatom]`, `[symbolatom]`, `[nbx]`, `[hsl]`, `[vsl]`, `[hradio]`, `[vradio]` (whose library files are the same), `[bng]`,
`[abs]`: the generated code of the library patches, for every history.
-/
namespace Verif.Lib
open Verif.Control (Dest Kind Cast Patch Act Sys Env Big)

/-! ### specification -/

/-- a box holds a number or a name, `a` at the beginning: what comes to the left inlet is kept and passed on, what comes to the right
inlet is kept, a bang at the left inlet gives what is kept -/
def box (a : Atom) : Reacts Atom where
  init := a
  on v _ i m :=
    match i, m with
    | 0, .bang :: _ => (v, [(0, [v])])
    | _, .bang :: _ => (v, [])
    | 0, x :: _ => (x, [(0, m)])
    | _, x :: _ => (x, [])
    | _, [] => (v, [])

/-- a bang for everything -/
def banger : Reacts Unit where
  init := ()
  on _ _ _ _ := ((), [(0, [.bang])])

/-- absolute values of numbers -/
def absolute : Reacts Unit where
  init := ()
  on _ _ _ m :=
    match m with
    | .float q :: _ => ((), [(0, [.float |q|])])
    | _ => ((), [])

/-- messages that are not empty, at one of `n` inlets -/
def Into (n : Nat) : Ev → Prop
  | .ext _ i m => i < n ∧ m ≠ []
  | .tick => True

/-- what a box holds: the last thing that came to it that is not a bang -/
def last (a : Atom) : List Ev → Atom
  | [] => a
  | .ext _ _ (.float q :: _) :: es => last (.float q) es
  | .ext _ _ (.sym x :: _) :: es => last (.sym x) es
  | _ :: es => last a es

theorem box_holds (a : Atom) (es : List Ev) : ((box a).after es).1 = last a es := by
  have key : ∀ (es : List Ev) (v : Atom) (l : List (Nat × Nat × Msg)), (es.foldl (box a).step (v, l)).1 = last v es := by
    intro es
    induction es with
    | nil => intro v l; rfl
    | cons e es ih =>
      intro v l
      rw [List.foldl_cons]
      have : ∀ x, es.foldl (box a).step x = es.foldl (box a).step (x.1, x.2) := fun x => rfl
      rw [this, ih]
      match e with
      | .tick => rfl
      | .ext t i [] => cases i <;> rfl
      | .ext t i (.bang :: m) => cases i <;> rfl
      | .ext t i (.float q :: m) => cases i <;> rfl
      | .ext t i (.sym x :: m) => cases i <;> rfl
  exact key es a []

/-- **C88** a bang at the left inlet gives the last number or name, whatever came before -/
theorem box_bang (a : Atom) (es : List Ev) (t : Nat) : ((box a).after (es ++ [.ext t 0 [.bang]])).2 =
    ((box a).after es).2 ++ [(t, 0, [last a es])] := by
  rw [← box_holds a es]
  simp only [Reacts.after, List.foldl_append, List.foldl_cons, List.foldl_nil]
  rfl

variable {c : Ctx}

namespace Nbx

/-- **C88** `[nbx]`, `[hsl]`, `[vsl]`, `[hradio]`, `[vradio]`: the program does not know the ranges of the boxes -/
theorem box_does (M : Mach) (hM : Code c M) (tab : Nat → List ℚ) :
    Does M drv (start c nodes tab) (Into 1) (box (.float 0)) := by
  refine does_of_simulates (to_code hM (fun e h => by cases e with | ext t i m => exact h.1 | tick => trivial)
    (simulates_of_reacts (R := fun v s => s.mem 3 = [v]) ?_ ?_)) fun x s h => ⟨h.1.q, h.1.log⟩
  · have hb : Ends (sys c) [] (start c nodes tab) _ := ends_nil.mpr rfl
    exact ⟨_, hb, rfl, rfl, rfl⟩
  · intro v s t i m hr hq hf
    obtain ⟨hi, hm⟩ := hf
    obtain rfl : i = 0 := by omega
    match m, hm with
    | .bang :: m, _ =>
      refine ⟨?s1, (?h1 : Ends (sys c) [((0, 0), _)] _ _), ?_⟩
      case h1 => simp [lib_step, lib_nbx, hr]; rfl
      refine ⟨?_, ?_, ?_⟩ <;> simp [lib_step, box, hr, hq]
    | .float q :: m, _ =>
      refine ⟨?s2, (?h2 : Ends (sys c) [((0, 0), _)] _ _), ?_⟩
      case h2 => simp [lib_step, lib_nbx, hr]; rfl
      refine ⟨?_, ?_, ?_⟩ <;> simp [lib_step, box, hr, hq]
    | .sym x :: m, _ =>
      refine ⟨?s3, (?h3 : Ends (sys c) [((0, 0), _)] _ _), ?_⟩
      case h3 => simp [lib_step, lib_nbx, hr]; rfl
      refine ⟨?_, ?_, ?_⟩ <;> simp [lib_step, box, hr, hq]

end Nbx

namespace Floatatom

/-- **C88** `[floatatom]`; what it holds at the beginning: see `atom_starts` -/
theorem box_does (a1 : String) (M : Mach) (hM : Code a1 c M) (tab : Nat → List ℚ) :
    Does M drv (start c (nodes a1) tab) (Into 1) (box (.sym a1)) := by
  refine does_of_simulates (to_code hM (fun e h => by cases e with | ext t i m => exact h.1 | tick => trivial)
    (simulates_of_reacts (R := fun v s => s.mem 4 = [v]) ?_ ?_)) fun x s h => ⟨h.1.q, h.1.log⟩
  · have hb : Ends (sys a1 c) [] (start c (nodes a1) tab) _ := ends_nil.mpr rfl
    exact ⟨_, hb, rfl, rfl, rfl⟩
  · intro v s t i m hr hq hf
    obtain ⟨hi, hm⟩ := hf
    obtain rfl : i = 0 := by omega
    match m, hm with
    | .bang :: m, _ =>
      refine ⟨?s1, (?h1 : Ends (sys a1 c) [((0, 0), _)] _ _), ?_⟩
      case h1 => simp [lib_step, lib_floatatom, hr]; rfl
      refine ⟨?_, ?_, ?_⟩ <;> simp [lib_step, box, hr, hq]
    | .float q :: m, _ =>
      refine ⟨?s2, (?h2 : Ends (sys a1 c) [((0, 0), _)] _ _), ?_⟩
      case h2 => simp [lib_step, lib_floatatom, hr]; rfl
      refine ⟨?_, ?_, ?_⟩ <;> simp [lib_step, box, hr, hq]
    | .sym x :: m, _ =>
      refine ⟨?s3, (?h3 : Ends (sys a1 c) [((0, 0), _)] _ _), ?_⟩
      case h3 => simp [lib_step, lib_floatatom, hr]; rfl
      refine ⟨?_, ?_, ?_⟩ <;> simp [lib_step, box, hr, hq]

end Floatatom

namespace Symbolatom

/-- **C88** `[symbolatom]`; what it holds at the beginning: see `atom_starts` -/
theorem box_does (a1 : String) (M : Mach) (hM : Code a1 c M) (tab : Nat → List ℚ) :
    Does M drv (start c (nodes a1) tab) (Into 1) (box (.sym a1)) := by
  refine does_of_simulates (to_code hM (fun e h => by cases e with | ext t i m => exact h.1 | tick => trivial)
    (simulates_of_reacts (R := fun v s => s.mem 6 = [v]) ?_ ?_)) fun x s h => ⟨h.1.q, h.1.log⟩
  · have hb : Ends (sys a1 c) [] (start c (nodes a1) tab) _ := ends_nil.mpr rfl
    exact ⟨_, hb, rfl, rfl, rfl⟩
  · intro v s t i m hr hq hf
    obtain ⟨hi, hm⟩ := hf
    obtain rfl : i = 0 := by omega
    match m, hm with
    | .bang :: m, _ =>
      refine ⟨?s1, (?h1 : Ends (sys a1 c) [((0, 0), _)] _ _), ?_⟩
      case h1 => simp [lib_step, lib_symbolatom, hr]; rfl
      refine ⟨?_, ?_, ?_⟩ <;> simp [lib_step, box, hr, hq]
    | .float q :: m, _ =>
      refine ⟨?s2, (?h2 : Ends (sys a1 c) [((0, 0), _)] _ _), ?_⟩
      case h2 => simp [lib_step, lib_symbolatom, hr]; rfl
      refine ⟨?_, ?_, ?_⟩ <;> simp [lib_step, box, hr, hq]
    | .sym x :: m, _ =>
      refine ⟨?s3, (?h3 : Ends (sys a1 c) [((0, 0), _)] _ _), ?_⟩
      case h3 => simp [lib_step, lib_symbolatom, hr]; rfl
      refine ⟨?_, ?_, ?_⟩ <;> simp [lib_step, box, hr, hq]

end Symbolatom

namespace Float

/-- **C88** `[float]` -/
theorem box_does (a1 : ℚ) (M : Mach) (hM : Code a1 c M) (tab : Nat → List ℚ) :
    Does M drv (start c (nodes a1) tab) (Into 2) (box (.float a1)) := by
  refine does_of_simulates (to_code hM (fun e h => by cases e with | ext t i m => exact h.1 | tick => trivial)
    (simulates_of_reacts (R := fun v s => s.mem 1 = [v]) ?_ ?_)) fun x s h => ⟨h.1.q, h.1.log⟩
  · have hb : Ends (sys a1 c) [] (start c (nodes a1) tab) _ := ends_nil.mpr rfl
    exact ⟨_, hb, rfl, rfl, rfl⟩
  · intro v s t i m hr hq hf
    obtain ⟨hi, hm⟩ := hf
    obtain rfl | rfl : i = 0 ∨ i = 1 := by omega
    · match m, hm with
      | .bang :: m, _ =>
        refine ⟨?s1, (?h1 : Ends (sys a1 c) [((0, 0), _)] _ _), ?_⟩
        case h1 => simp [lib_step, lib_float, hr]; rfl
        refine ⟨?_, ?_, ?_⟩ <;> simp [lib_step, box, hr, hq]
      | .float q :: m, _ =>
        refine ⟨?s2, (?h2 : Ends (sys a1 c) [((0, 0), _)] _ _), ?_⟩
        case h2 => simp [lib_step, lib_float, hr]; rfl
        refine ⟨?_, ?_, ?_⟩ <;> simp [lib_step, box, hr, hq]
      | .sym x :: m, _ =>
        refine ⟨?s3, (?h3 : Ends (sys a1 c) [((0, 0), _)] _ _), ?_⟩
        case h3 => simp [lib_step, lib_float, hr]; rfl
        refine ⟨?_, ?_, ?_⟩ <;> simp [lib_step, box, hr, hq]
    · match m, hm with
      | .bang :: m, _ =>
        refine ⟨?s4, (?h4 : Ends (sys a1 c) [((0, 1), _)] _ _), ?_⟩
        case h4 => simp [lib_step, lib_float, hr]; rfl
        refine ⟨?_, ?_, ?_⟩ <;> simp [lib_step, box, hr, hq]
      | .float q :: m, _ =>
        refine ⟨?s5, (?h5 : Ends (sys a1 c) [((0, 1), _)] _ _), ?_⟩
        case h5 => simp [lib_step, lib_float, hr]; rfl
        refine ⟨?_, ?_, ?_⟩ <;> simp [lib_step, box, hr, hq]
      | .sym x :: m, _ =>
        refine ⟨?s6, (?h6 : Ends (sys a1 c) [((0, 1), _)] _ _), ?_⟩
        case h6 => simp [lib_step, lib_float, hr]; rfl
        refine ⟨?_, ?_, ?_⟩ <;> simp [lib_step, box, hr, hq]

end Float

namespace Symbol

/-- **C88** `[symbol]`, which does not mind numbers -/
theorem box_does (a1 : String) (M : Mach) (hM : Code a1 c M) (tab : Nat → List ℚ) :
    Does M drv (start c (nodes a1) tab) (Into 2) (box (.sym a1)) := by
  refine does_of_simulates (to_code hM (fun e h => by cases e with | ext t i m => exact h.1 | tick => trivial)
    (simulates_of_reacts (R := fun v s => s.mem 3 = [v]) ?_ ?_)) fun x s h => ⟨h.1.q, h.1.log⟩
  · have hb : Ends (sys a1 c) [] (start c (nodes a1) tab) _ := ends_nil.mpr rfl
    exact ⟨_, hb, rfl, rfl, rfl⟩
  · intro v s t i m hr hq hf
    obtain ⟨hi, hm⟩ := hf
    obtain rfl | rfl : i = 0 ∨ i = 1 := by omega
    · match m, hm with
      | .bang :: m, _ =>
        refine ⟨?s1, (?h1 : Ends (sys a1 c) [((0, 0), _)] _ _), ?_⟩
        case h1 => simp [lib_step, lib_symbol, hr]; rfl
        refine ⟨?_, ?_, ?_⟩ <;> simp [lib_step, box, hr, hq]
      | .float q :: m, _ =>
        refine ⟨?s2, (?h2 : Ends (sys a1 c) [((0, 0), _)] _ _), ?_⟩
        case h2 => simp [lib_step, lib_symbol, hr]; rfl
        refine ⟨?_, ?_, ?_⟩ <;> simp [lib_step, box, hr, hq]
      | .sym x :: m, _ =>
        refine ⟨?s3, (?h3 : Ends (sys a1 c) [((0, 0), _)] _ _), ?_⟩
        case h3 => simp [lib_step, lib_symbol, hr]; rfl
        refine ⟨?_, ?_, ?_⟩ <;> simp [lib_step, box, hr, hq]
    · match m, hm with
      | .bang :: m, _ =>
        refine ⟨?s4, (?h4 : Ends (sys a1 c) [((0, 1), _)] _ _), ?_⟩
        case h4 => simp [lib_step, lib_symbol, hr]; rfl
        refine ⟨?_, ?_, ?_⟩ <;> simp [lib_step, box, hr, hq]
      | .float q :: m, _ =>
        refine ⟨?s5, (?h5 : Ends (sys a1 c) [((0, 1), _)] _ _), ?_⟩
        case h5 => simp [lib_step, lib_symbol, hr]; rfl
        refine ⟨?_, ?_, ?_⟩ <;> simp [lib_step, box, hr, hq]
      | .sym x :: m, _ =>
        refine ⟨?s6, (?h6 : Ends (sys a1 c) [((0, 1), _)] _ _), ?_⟩
        case h6 => simp [lib_step, lib_symbol, hr]; rfl
        refine ⟨?_, ?_, ?_⟩ <;> simp [lib_step, box, hr, hq]

end Symbol

namespace Bng

/-- **C88** `[bng]` -/
theorem bng_does (M : Mach) (hM : Code c M) (tab : Nat → List ℚ) : Does M drv (start c nodes tab) (Into 1) banger := by
  refine does_of_simulates (to_code hM (fun e h => by cases e with | ext t i m => exact h.1 | tick => trivial)
    (simulates_of_reacts (R := fun _ _ => True) ?_ ?_)) fun x s h => ⟨h.1.q, h.1.log⟩
  · have hb : Ends (sys c) [] (start c nodes tab) _ := ends_nil.mpr rfl
    exact ⟨_, hb, trivial, rfl, rfl⟩
  · intro v s t i m hr hq hf
    obtain ⟨hi, hm⟩ := hf
    obtain rfl : i = 0 := by omega
    refine ⟨?s1, (?h1 : Ends (sys c) [((0, 0), _)] _ _), ?_⟩
    case h1 => simp [lib_step, lib_bng]; rfl
    refine ⟨?_, ?_, ?_⟩ <;> simp [lib_step, banger, hq]

end Bng

namespace Abs

/-- **C88** `[abs]` -/
theorem abs_does (M : Mach) (hM : Code c M) (tab : Nat → List ℚ) : Does M drv (start c nodes tab) (Into 1) absolute := by
  refine does_of_simulates (to_code hM (fun e h => by cases e with | ext t i m => exact h.1 | tick => trivial)
    (simulates_of_reacts (R := fun _ _ => True) ?_ ?_)) fun x s h => ⟨h.1.q, h.1.log⟩
  · have hb : Ends (sys c) [] (start c nodes tab) _ := ends_nil.mpr rfl
    exact ⟨_, hb, trivial, rfl, rfl⟩
  · intro v s t i m hr hq hf
    obtain ⟨hi, hm⟩ := hf
    obtain rfl : i = 0 := by omega
    match m, hm with
    | .bang :: m, _ =>
      refine ⟨?s1, (?h1 : Ends (sys c) [((0, 0), _)] _ _), ?_⟩
      case h1 => simp [lib_step, lib_abs]; rfl
      refine ⟨?_, ?_, ?_⟩ <;> simp [lib_step, absolute, hq]
    | .float q :: m, _ =>
      refine ⟨?s2, (?h2 : Ends (sys c) [((0, 0), _)] _ _), ?_⟩
      case h2 => simp [lib_step, lib_abs]; rfl
      refine ⟨?_, ?_, ?_⟩ <;> simp [lib_step, absolute, hq]
    | .sym x :: m, _ =>
      refine ⟨?s3, (?h3 : Ends (sys c) [((0, 0), _)] _ _), ?_⟩
      case h3 => simp [lib_step, lib_abs]; rfl
      refine ⟨?_, ?_, ?_⟩ <;> simp [lib_step, absolute, hq]

end Abs

/-! ### what the boxes of atoms hold at the beginning -/

/-- the arguments of the library patch of `#X floatatom x y ...` or `#X symbolatom x y ...`: `$0` and the line without its first word,
PdParser.py:190, 521-530; the default of `$1` is not used -/
def atomArgs (line : List ControlExpr.Text) (zero : ControlExpr.Text) (default : Option ControlExpr.Text) : Dollar.Ctx :=
  ⟨zero :: line.drop 1, [default], true, false⟩

/-- **C88** `$1` in the library patch is the name of the box.  (Finding: a `[floatatom]` that gets a bang before it has got a number
sends the name `floatatom`; in Pd it sends 0.) -/
theorem atom_starts (name : ControlExpr.Text) (rest : List ControlExpr.Text) (zero : ControlExpr.Text) (default : Option ControlExpr.Text) :
    (atomArgs (['#', 'X'] :: name :: rest) zero default).loop [['1']] (.ok ['\\', '$', '1']) = .ok name ∧
    ((box (.sym "floatatom")).after [.ext 1 0 [.bang]]).2 = [(1, 0, [.sym "floatatom"])] := by
  refine ⟨?_, by decide +kernel⟩
  have h1 : (atomArgs (['#', 'X'] :: name :: rest) zero default).value (ControlExpr.number ['1']) = .text name := rfl
  simp only [Dollar.Ctx.loop, h1]
  simp [ControlExpr.replace, ControlExpr.scan]

/-! ### a history -/

/-- a box with 5, sent a bang, the name `x` to the right inlet and a bang, and `7 8` and a bang.  (Finding: `[float]` keeps names and
`[symbol]` keeps numbers.) -/
theorem box_history : ((box (.float 5)).after [.ext 1 0 [.bang], .ext 2 1 [.sym "x"], .ext 3 0 [.bang], .ext 4 0 [.float 7, .float 8],
    .ext 5 0 [.bang]]).2 =
    [(1, 0, [.float 5]), (3, 0, [.sym "x"]), (4, 0, [.float 7, .float 8]), (5, 0, [.float 7])] := by decide +kernel

end Verif.Lib
