import Verif.LibSim
import Mathlib.Logic.Function.Iterate
/-!
Specification of `[poly]`: a voice allocator.
-/
namespace Verif.Lib.Poly

/-- a voice: its pitch, whether it sounds, and the number of the last change -/
structure Voice where
  pitch : ℚ
  used : Bool
  id : Nat
deriving DecidableEq

/-- the index of the voice with the property `P` and the smallest number; the first one, if there are several -/
def oldest (P : Voice → Bool) : List Voice → Option Nat
  | [] => none
  | v :: r =>
    match oldest P r with
    | some j => if P v ∧ ∀ w ∈ r[j]?, v.id ≤ w.id then some 0 else some (j + 1)
    | none => if P v then some 0 else none

/-- what comes out: a voice (counted from 0) gets a pitch and a velocity -/
structure Note where
  vel : ℚ
  pitch : ℚ
  voice : Nat
deriving DecidableEq

/-- on the outlets: the velocity, the pitch, the number of the voice (from 1) -/
def Note.out (x : Note) : List (Nat × Msg) := [(2, [.float x.vel]), (1, [.float x.pitch]), (0, [.float ((x.voice : ℚ) + 1)])]

/-- the voices, the number of the next change, the last velocity -/
structure Alloc where
  voices : List Voice
  next : Nat
  vel : Option ℚ
deriving DecidableEq

/-- voice `i` gets the pitch `p` or is released; the changes are numbered modulo 65535 -/
def Alloc.change (A : Alloc) (i : Nat) (p : ℚ) (on : Bool) : Alloc :=
  { A with voices := A.voices.set i ⟨p, on, A.next % 65535⟩, next := A.next % 65535 + 1 }

/-- a note with a positive velocity goes to the silent voice with the smallest number; if there is none, the sounding voice with the
smallest number is ended and gets it, if stealing is allowed; any other note ends the voice with this pitch and the smallest number -/
def Alloc.note (A : Alloc) (steal : Bool) (p v : ℚ) : Alloc × List Note :=
  if 0 < v then
    match oldest (fun x => !x.used) A.voices with
    | some i => (A.change i p true, [⟨v, p, i⟩])
    | none =>
      match if steal then oldest (fun x => x.used) A.voices else none with
      | some i => (A.change i p true, [⟨0, ((A.voices[i]?.map (·.pitch)).getD 0), i⟩, ⟨v, p, i⟩])
      | none => (A, [])
  else
    match oldest (fun x => x.used && decide (x.pitch = p)) A.voices with
    | some i => (A.change i p false, [⟨0, p, i⟩])
    | none => (A, [])

/-- all sounding voices are ended; the numbers start again -/
def Alloc.stop (A : Alloc) : Alloc × List Note :=
  ({ A with voices := A.voices.map fun v => { v with used := false },
            next := (fun k => k % 65535 + 1)^[(A.voices.filter (·.used)).length] 1 },
   (A.voices.zipIdx.filter (·.1.used)).map fun x => ⟨0, x.1.pitch, x.2⟩)

/-- all voices are forgotten -/
def Alloc.clear (A : Alloc) : Alloc := { A with voices := A.voices.map fun _ => ⟨0, false, 0⟩, next := 1 }

/-- the messages: a pitch (with the last velocity), a pitch and a velocity, a velocity (second inlet), stop, clear -/
def Alloc.on (steal : Bool) (A : Alloc) (i : Nat) (m : Msg) : Alloc × List Note :=
  match i, m with
  | 0, [.float p] =>
    match A.vel with
    | some v => A.note steal p v
    | none => (A, [])
  | 0, [.float p, .float v] => ({ A with vel := some v } : Alloc).note steal p v
  | 1, [.float v] => ({ A with vel := some v }, [])
  | 0, [.sym x] => if x = "stop" then A.stop else if x = "clear" then (A.clear, []) else (A, [])
  | _, _ => (A, [])

/-- `n` voices -/
def Alloc.new (n : Nat) : Alloc := ⟨List.replicate n ⟨0, false, 0⟩, 0, none⟩

/-- the allocator -/
def poly (n : Nat) (steal : Bool) : Reacts Alloc where
  init := .new n
  on A _ i m := ((A.on steal i m).1, (A.on steal i m).2.flatMap Note.out)

/-- the messages dealt with -/
def Fits : Ev → Prop
  | .ext _ 0 [.float _] => True
  | .ext _ 0 [.float _, .float _] => True
  | .ext _ 1 [.float _] => True
  | .ext _ 0 [.sym x] => x = "stop" ∨ x = "clear"
  | .ext _ _ _ => False
  | .tick => True

/-! ## about `oldest` -/

/-- `x` is the voice with `P` and the smallest number, the first if there are several; or there is none -/
def IsOldest (P : Voice → Bool) (vs : List Voice) : Option Nat → Prop
  | none => ∀ v ∈ vs, P v = false
  | some i => ∃ v, vs[i]? = some v ∧ P v = true ∧ ∀ j w, vs[j]? = some w → P w = true → v.id ≤ w.id ∧ (j < i → v.id < w.id)

theorem isOldest (P : Voice → Bool) (vs : List Voice) : IsOldest P vs (oldest P vs) := by
  induction vs with
  | nil => simp [oldest, IsOldest]
  | cons v r ih =>
    simp only [oldest]
    cases ho : oldest P r with
    | none =>
      rw [ho] at ih
      by_cases hP : P v = true
      · simp only [hP, if_true]
        refine ⟨v, rfl, hP, ?_⟩
        intro j w hw hPw
        cases j with
        | zero => simp only [List.getElem?_cons_zero, Option.some.injEq] at hw; subst hw; exact ⟨le_refl _, fun h => absurd h (by omega)⟩
        | succ j =>
          have := ih w (List.mem_of_getElem? (by simpa using hw))
          rw [this] at hPw; cases hPw
      · simp only [hP, if_false]
        intro w hw
        rcases List.mem_cons.mp hw with rfl | hw
        · simpa using hP
        · exact ih w hw
    | some j =>
      rw [ho] at ih
      obtain ⟨u, hu, hPu, hmin⟩ := ih
      dsimp only
      by_cases hc : P v = true ∧ ∀ w ∈ r[j]?, v.id ≤ w.id
      · rw [if_pos hc]
        have hvu := hc.2 u hu
        refine ⟨v, rfl, hc.1, ?_⟩
        intro k w hw hPw
        cases k with
        | zero => simp only [List.getElem?_cons_zero, Option.some.injEq] at hw; subst hw; exact ⟨le_refl _, fun h => absurd h (by omega)⟩
        | succ k =>
          have := hmin k w (by simpa using hw) hPw
          exact ⟨by omega, fun h => absurd h (by omega)⟩
      · rw [if_neg hc]
        refine ⟨u, by simpa using hu, hPu, ?_⟩
        intro k w hw hPw
        cases k with
        | zero =>
          simp only [List.getElem?_cons_zero, Option.some.injEq] at hw
          subst hw
          have : ¬ v.id ≤ u.id := fun h => hc ⟨hPw, fun w hw => by rw [hu] at hw; cases hw; exact h⟩
          exact ⟨by omega, fun _ => by omega⟩
        | succ k =>
          have := hmin k w (by simpa using hw) hPw
          exact ⟨this.1, fun h => this.2 (by omega)⟩

theorem isOldest_unique {P : Voice → Bool} {vs : List Voice} {x y : Option Nat} (hx : IsOldest P vs x) (hy : IsOldest P vs y) : x = y := by
  cases x with
  | none =>
    cases y with
    | none => rfl
    | some j =>
      obtain ⟨v, h1, h2, -⟩ := hy
      rw [hx v (List.mem_of_getElem? h1)] at h2; cases h2
  | some i =>
    obtain ⟨v, h1, h2, h3⟩ := hx
    cases y with
    | none => rw [hy v (List.mem_of_getElem? h1)] at h2; cases h2
    | some j =>
      obtain ⟨w, k1, k2, k3⟩ := hy
      have a := h3 j w k1 k2
      have b := k3 i v h1 h2
      have : i = j := by
        rcases Nat.lt_trichotomy i j with h | h | h
        · have := b.2 h; omega
        · exact h
        · have := a.2 h; omega
      rw [this]

/-- `oldest` is what it should be -/
theorem oldest_iff {P : Voice → Bool} {vs : List Voice} {x : Option Nat} : oldest P vs = x ↔ IsOldest P vs x :=
  ⟨fun h => h ▸ isOldest P vs, fun h => isOldest_unique (isOldest P vs) h⟩

end Verif.Lib.Poly
