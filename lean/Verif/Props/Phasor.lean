import Verif.Phasor
import Verif.Props.Simd
import Mathlib.Tactic.NormNum
import Mathlib.Tactic.Linarith
import Mathlib.Tactic.Positivity
/-!
# C29: phase accumulation of phasor~

Specification: `IsPhase step set P` — the phase `P n` before sample `n` is the phase received by message just before that
sample if there is one, otherwise the previous phase plus the previous step (0 at first), modulo 2^32.
-/
set_option linter.unusedSimpArgs false

namespace Verif.Phasor
open Verif.Simd

/-! ### specification -/

theorem ladd (a b c : BitVec 32) : a + (b + c) = b + (a + c) := by
  rw [← BitVec.add_assoc, ← BitVec.add_assoc, BitVec.add_comm a b]

/-- the phase before each sample -/
def IsPhase (step : Nat → BitVec 32) (set : Nat → Option (BitVec 32)) (P : Nat → BitVec 32) : Prop :=
  ∀ n, P n = (set n).getD (D P 1 n + D step 1 n)

/-- messages arrive between blocks of `N` samples -/
def atBlocks {β : Type} (N : Nat) (none : β) (msgs : Nat → β) (n : Nat) : β := if n % N = 0 then msgs (n / N) else none

/-- sum of the first `n` steps -/
def total (step : Nat → BitVec 32) : Nat → BitVec 32
  | 0 => 0
  | n + 1 => total step n + step n

/-- without messages the phase is the sum of all steps so far, modulo 2^32 -/
theorem IsPhase.sum {step : Nat → BitVec 32} {P : Nat → BitVec 32} (h : IsPhase step (fun _ => none) P) (n : Nat) :
    P n = total step n := by
  induction n with
  | zero => rw [h 0]; rfl
  | succ n ih => rw [h (n + 1)]; simp [total, ih]

/-- after a message `p` before sample `m`, and no other, the phase is `p` plus the sum of the steps since -/
theorem IsPhase.since {step : Nat → BitVec 32} {set : Nat → Option (BitVec 32)} {P : Nat → BitVec 32} (h : IsPhase step set P)
    (m k : Nat) (p : BitVec 32) (hm : set m = some p) (hs : ∀ i, m < i → i ≤ m + k → set i = none) :
    P (m + k) = p + total (fun i => step (m + i)) k := by
  induction k with
  | zero => rw [h (m + 0)]; simp [hm, total]
  | succ k ih =>
    rw [h (m + (k + 1)), hs _ (by omega) (by omega), ← Nat.add_assoc]
    simp only [Option.getD_none, D_succ_succ, D_zero, total]
    rw [ih fun i h1 h2 => hs i h1 (by omega), BitVec.add_assoc]

/-! ### the output value -/

theorem mantissa_bits (p : BitVec 32) : ((p >>> 9) ||| 0x3F800000#32).toNat = 0x3F800000 + p.toNat / 2 ^ 9 := by
  rw [BitVec.toNat_or, BitVec.toNat_ushiftRight, Nat.shiftRight_eq_div_pow]
  have h : p.toNat / 2 ^ 9 < 2 ^ 23 := by have := p.isLt; omega
  have e : (0x3F800000#32).toNat = 127 <<< 23 := by decide
  rw [e, Nat.or_comm, ← Nat.shiftLeft_add_eq_or_of_lt h, Nat.shiftLeft_eq]

/-- the output of a phase is its upper 23 bits as a fraction -/
theorem output_eq (p : BitVec 32) : output p = ((p.toNat / 2 ^ 9 : Nat) : Rat) / 2 ^ 23 := by
  have h : p.toNat / 2 ^ 9 < 2 ^ 23 := by have := p.isLt; omega
  have e1 : (0x3F800000 + p.toNat / 2 ^ 9) % 2 ^ 23 = p.toNat / 2 ^ 9 := by omega
  have e2 : (0x3F800000 + p.toNat / 2 ^ 9) / 2 ^ 23 = 127 := by omega
  rw [output, value, mantissa_bits, e1, e2]
  norm_num

/-- so it lies in [0, 1) and differs from the exact phase by less than 2^-23 -/
theorem output_range (p : BitVec 32) :
    0 ≤ output p ∧ output p < 1 ∧ output p ≤ (p.toNat : Rat) / 2 ^ 32 ∧ (p.toNat : Rat) / 2 ^ 32 < output p + 1 / 2 ^ 23 := by
  have h : p.toNat / 2 ^ 9 < 2 ^ 23 := by have := p.isLt; omega
  rw [output_eq]
  have h1 : ((p.toNat / 2 ^ 9 : Nat) : Rat) < 2 ^ 23 := by exact_mod_cast h
  have h2 : 2 ^ 9 * ((p.toNat / 2 ^ 9 : Nat) : Rat) ≤ (p.toNat : Rat) := by exact_mod_cast Nat.mul_div_le _ _
  have h3 : (p.toNat : Rat) < 2 ^ 9 * (((p.toNat / 2 ^ 9 : Nat) : Rat) + 1) := by
    have : p.toNat < 2 ^ 9 * (p.toNat / 2 ^ 9 + 1) := by omega
    exact_mod_cast this
  have h0 : (0 : Rat) ≤ ((p.toNat / 2 ^ 9 : Nat) : Rat) := Nat.cast_nonneg _
  generalize ((p.toNat / 2 ^ 9 : Nat) : Rat) = q at *
  generalize (p.toNat : Rat) = r at *
  refine ⟨by positivity, by rw [div_lt_one (by norm_num)]; exact h1, ?_, ?_⟩
  · rw [div_le_div_iff₀ (by norm_num) (by norm_num)]; linarith
  · rw [← add_div, div_lt_div_iff₀ (by norm_num) (by norm_num)]; linarith

/-! ### signal input -/

/-- a solution -/
def phaseRec (step : Nat → BitVec 32) (set : Nat → Option (BitVec 32)) : Nat → BitVec 32
  | 0 => (set 0).getD 0
  | n + 1 => (set (n + 1)).getD (phaseRec step set n + step n)

theorem phaseRec_is (step : Nat → BitVec 32) (set : Nat → Option (BitVec 32)) : IsPhase step set (phaseRec step set) := by
  intro n
  cases n with
  | zero => simp [phaseRec]
  | succ n => rw [phaseRec]; simp

theorem IsPhase.unique {step : Nat → BitVec 32} {set : Nat → Option (BitVec 32)} {P Q : Nat → BitVec 32}
    (h : IsPhase step set P) (h' : IsPhase step set Q) : P = Q := by
  funext n
  induction n with
  | zero => rw [h 0, h' 0]; simp
  | succ n ih => rw [h (n + 1), h' (n + 1)]; simp [ih]

/-- the prefix sums of a vector -/
theorem sse_is (p : BitVec 32) (s : W) :
    sse (fun _ => p) s = (fun _ => p + s 0 + s 1 + s 2 + s 3,
      ![p + s 0, p + s 0 + s 1, p + s 0 + s 1 + s 2, p + s 0 + s 1 + s 2 + s 3]) := by
  have e3 : ∀ a b c d : BitVec 32, p + (d + c + (b + a)) = p + a + b + c + d := fun a b c d => by
    simp only [BitVec.add_comm, BitVec.add_assoc, ladd]
  refine Prod.ext (funext fun j => ?_) (funext fun j => ?_)
  · exact e3 _ _ _ _
  · fin_cases j
    · show p + (s 0 + 0#32 + 0#32) = p + s 0
      rw [BitVec.add_zero, BitVec.add_zero]
    · show p + (s 1 + s 0 + 0#32) = p + s 0 + s 1
      rw [BitVec.add_zero, BitVec.add_comm (s 1), BitVec.add_assoc]
    · show p + (s 2 + s 1 + (s 0 + 0#32)) = p + s 0 + s 1 + s 2
      rw [BitVec.add_zero, BitVec.add_comm (s 2), BitVec.add_comm (s 1 + s 2), BitVec.add_assoc, BitVec.add_assoc]
    · exact e3 _ _ _ _

theorem neon_is (p : BitVec 32) (s : W) : neon (fun _ => p) s = sse (fun _ => p) s := by
  rw [sse_is]
  have e3 : ∀ a b c d : BitVec 32, p + (d + c + (b + a)) = p + a + b + c + d := fun a b c d => by
    simp only [BitVec.add_comm, BitVec.add_assoc, ladd]
  refine Prod.ext (funext fun j => ?_) (funext fun j => ?_)
  · exact e3 _ _ _ _
  · fin_cases j
    · show p + (s 0 + 0#32 + 0#32) = p + s 0
      rw [BitVec.add_zero, BitVec.add_zero]
    · show p + (s 1 + s 0 + 0#32) = p + s 0 + s 1
      rw [BitVec.add_zero, BitVec.add_comm (s 1), BitVec.add_assoc]
    · show p + (s 2 + s 1 + (s 0 + 0#32)) = p + s 0 + s 1 + s 2
      rw [BitVec.add_zero, BitVec.add_comm (s 2), BitVec.add_comm (s 1 + s 2), BitVec.add_assoc, BitVec.add_assoc]
    · exact e3 _ _ _ _

theorem atBlocks_zero {β : Type} (N : Nat) (h : 0 < N) (z : β) (msgs : Nat → β) (k : Nat) :
    atBlocks N z msgs (k * N) = msgs k := by
  simp [atBlocks, Nat.mul_div_cancel _ h]

theorem atBlocks_pos {β : Type} (N : Nat) (z : β) (msgs : Nat → β) (k j : Nat) (h : 0 < j) (hj : j < N) :
    atBlocks N z msgs (k * N + j) = z := by
  have : (k * N + j) % N = j := by rw [Nat.add_comm, Nat.add_mul_mod_self_right, Nat.mod_eq_of_lt hj]
  simp [atBlocks, this]; omega

theorem setPhase_const {N : Nat} (p : BitVec 32) (m : Option (BitVec 32)) :
    setPhase (N := N) (fun _ => p) m = fun _ => m.getD p := by
  cases m <;> rfl

/-- the inputs of block `k` -/
def inputs (N : Nat) (msgs : Nat → Option (BitVec 32)) (step : Nat → BitVec 32) (k : Nat) :
    Option (BitVec 32) × V N (BitVec 32) := (msgs k, block N step k)

/-- **C29**, SSE, `__phasor~f`: with `P` the exact phase, the phase behind output sample `n` is the one after the step of that
sample -/
theorem phasor_sse (msgs : Nat → Option (BitVec 32)) (step P : Nat → BitVec 32)
    (hP : IsPhase step (atBlocks 4 none msgs) P) (n : Nat) :
    stream (by decide) (outAt (blockStep sse) zero (inputs 4 msgs step)) n = P n + step n := by
  have st : ∀ k, blockStep sse (fun _ => D P 1 (k * 4) + D step 1 (k * 4)) (inputs 4 msgs step k) =
      (fun _ => P (k * 4 + 3) + step (k * 4 + 3), fun j : Fin 4 => P (k * 4 + j) + step (k * 4 + j)) := by
    intro k
    have q0 := hP (k * 4)
    have q1 := hP (k * 4 + 1)
    have q2 := hP (k * 4 + 2)
    have q3 := hP (k * 4 + 3)
    rw [atBlocks_zero 4 (by decide)] at q0
    rw [atBlocks_pos 4 _ _ _ 1 (by decide) (by decide), D_at P 1 _ (k * 4) rfl, D_at step 1 _ (k * 4) rfl] at q1
    rw [atBlocks_pos 4 _ _ _ 2 (by decide) (by decide), D_at P 1 _ (k * 4 + 1) rfl, D_at step 1 _ (k * 4 + 1) rfl] at q2
    rw [atBlocks_pos 4 _ _ _ 3 (by decide) (by decide), D_at P 1 _ (k * 4 + 2) rfl, D_at step 1 _ (k * 4 + 2) rfl] at q3
    simp only [Option.getD_none] at q1 q2 q3
    have b0 : block 4 step k 0 = step (k * 4) := rfl
    have b1 : block 4 step k 1 = step (k * 4 + 1) := rfl
    have b2 : block 4 step k 2 = step (k * 4 + 2) := rfl
    have b3 : block 4 step k 3 = step (k * 4 + 3) := rfl
    rw [blockStep, inputs, setPhase_const, sse_is]
    simp only [b0, b1, b2, b3, ← q0, ← q1, ← q2, ← q3]
    refine Prod.ext rfl (funext fun j => ?_)
    fin_cases j
    · exact q1
    · exact q2
    · exact q3
    · rfl
  have inv : ∀ k, stateAt (blockStep sse) zero (inputs 4 msgs step) k = fun _ => D P 1 (k * 4) + D step 1 (k * 4) := by
    intro k
    induction k with
    | zero => funext j; simp [stateAt, zero]
    | succ k ih =>
      rw [stateAt, ih, st]
      funext _
      rw [D_at P 1 _ (k * 4 + 3) (by omega), D_at step 1 _ (k * 4 + 3) (by omega)]
  rw [stream_eq (y := fun n => P n + step n)]
  intro k j
  rw [outAt, inv, st]

theorem blockStep_neon (p : BitVec 32) (i : Option (BitVec 32) × W) :
    blockStep neon (fun _ => p) i = blockStep sse (fun _ => p) i := by
  rw [blockStep, blockStep, setPhase_const, neon_is]

/-- **C29**, NEON, `__phasor~f` -/
theorem phasor_neon (msgs : Nat → Option (BitVec 32)) (step P : Nat → BitVec 32)
    (hP : IsPhase step (atBlocks 4 none msgs) P) (n : Nat) :
    stream (by decide) (outAt (blockStep neon) zero (inputs 4 msgs step)) n = P n + step n := by
  have inv : ∀ k, stateAt (blockStep neon) zero (inputs 4 msgs step) k = stateAt (blockStep sse) zero (inputs 4 msgs step) k ∧
      ∃ p, stateAt (blockStep sse) zero (inputs 4 msgs step) k = fun _ => p := by
    intro k
    induction k with
    | zero => exact ⟨rfl, 0, rfl⟩
    | succ k ih =>
      obtain ⟨h, p, hp⟩ := ih
      rw [stateAt, stateAt, h, hp, blockStep_neon]
      exact ⟨rfl, _, rfl⟩
  rw [← phasor_sse msgs step P hP n]
  simp only [stream, outAt]
  obtain ⟨h, p, hp⟩ := inv (n / 4)
  rw [h, hp, blockStep_neon]

/-- **C29**, scalar, `__phasor~f`: here the output is made from the phase *before* the step of the sample -/
theorem phasor_scalar (msgs : Nat → Option (BitVec 32)) (step P : Nat → BitVec 32)
    (hP : IsPhase step (atBlocks 1 none msgs) P) (n : Nat) :
    stream (by decide) (outAt (blockStep none1) zero (inputs 1 msgs step)) n = P n := by
  have st : ∀ k, blockStep none1 (fun _ => D P 1 k + D step 1 k) (inputs 1 msgs step k) = (fun _ => P k + step k, fun _ => P k) := by
    intro k
    have h := hP k
    have hm : atBlocks 1 none msgs k = msgs k := by simpa using atBlocks_zero 1 (by decide) none msgs k
    rw [hm] at h
    rw [blockStep, inputs, setPhase_const, ← h]
    refine Prod.ext (funext fun j => ?_) rfl
    obtain rfl : j = 0 := Subsingleton.elim _ _
    simp [none1, block]
  have inv : ∀ k, stateAt (blockStep none1) zero (inputs 1 msgs step) k = fun _ => D P 1 k + D step 1 k := by
    intro k
    induction k with
    | zero => funext j; simp [stateAt, zero]
    | succ k ih => rw [stateAt, ih, st]; simp
  rw [stream_eq (y := P)]
  intro k j
  obtain rfl : j = 0 := Subsingleton.elim _ _
  rw [outAt, inv, st]
  simp

/-- **C29 fails across back ends**: the scalar `__phasor~f` is one step behind the vector code; a constant step of a quarter
turn gives 0, ¼, ½, … against ¼, ½, ¾, … -/
theorem phasor_back_ends_differ :
    output (stream (by decide) (outAt (blockStep none1) zero (inputs 1 (fun _ => none) fun _ => 0x40000000#32)) 0) = 0 ∧
    output (stream (by decide) (outAt (blockStep sse) zero (inputs 4 (fun _ => none) fun _ => 0x40000000#32)) 0) = 1 / 4 := by
  constructor
  · rw [output_eq, phasor_scalar _ _ _ (phaseRec_is _ _)]
    simp [phaseRec, atBlocks]
  · rw [output_eq, phasor_sse _ _ _ (phaseRec_is _ _)]
    simp [phaseRec, atBlocks]
    norm_num

/-! ### message input -/

/-- phase and step before sample `n`, after the messages -/
structure IsPhaseK (s0 : BitVec 32) (msgs : Nat → List KMsg) (P S : Nat → BitVec 32) : Prop where
  start : (P 0, S 0) = (msgs 0).foldl (fun ps m => match m with | .freq s => (ps.1, s) | .phase p => (p, ps.2)) (0, s0)
  next : ∀ n, (P (n + 1), S (n + 1)) =
    (msgs (n + 1)).foldl (fun ps m => match m with | .freq s => (ps.1, s) | .phase p => (p, ps.2)) (P n + S n, S n)

theorem foldl_k1 (l : List KMsg) (o : K1) :
    l.foldl K1.onMessage o =
      ⟨(l.foldl (fun ps m => match m with | .freq s => (ps.1, s) | .phase p => (p, ps.2)) (o.phase, o.inc)).1,
       (l.foldl (fun ps m => match m with | .freq s => (ps.1, s) | .phase p => (p, ps.2)) (o.phase, o.inc)).2⟩ := by
  induction l generalizing o with
  | nil => rfl
  | cons m l ih => cases m <;> exact ih _

/-- the four-lane state that holds phase `p` and step `s` -/
def K4.mk' (p s : BitVec 32) : K4 := ⟨fun i => BitVec.ofNat 32 i * s + p, fun _ => 4 * s, s⟩

theorem mk'_phase (p s q : BitVec 32) : (K4.mk' p s).updatePhase q = K4.mk' q s := by
  simp only [K4.updatePhase, K4.mk']
  congr 1
  funext i
  fin_cases i <;> simp

theorem mk'_freq (p s t : BitVec 32) : (K4.mk' p s).updateFrequency t = K4.mk' p t := by
  simp only [K4.updateFrequency, K4.updatePhase, K4.mk']
  congr 1
  funext i
  fin_cases i <;> simp

theorem init_k4 (s : BitVec 32) : K4.init s = K4.mk' 0 s := by
  simp only [K4.init, K4.updateFrequency, K4.updatePhase, K4.mk']
  congr 1
  funext i
  fin_cases i <;> simp

theorem foldl_k4 (l : List KMsg) (p s : BitVec 32) :
    l.foldl K4.onMessage (K4.mk' p s) =
      K4.mk' (l.foldl (fun ps m => match m with | .freq s => (ps.1, s) | .phase p => (p, ps.2)) (p, s)).1
        (l.foldl (fun ps m => match m with | .freq s => (ps.1, s) | .phase p => (p, ps.2)) (p, s)).2 := by
  induction l generalizing p s with
  | nil => rfl
  | cons m l ih =>
    cases m with
    | freq t => rw [List.foldl_cons, K4.onMessage, mk'_freq, ih]; rfl
    | phase q => rw [List.foldl_cons, K4.onMessage, mk'_phase, ih]; rfl

/-- **C29**, scalar, `__phasor_k~f`: the phase behind output sample `n` is the exact phase -/
theorem phasorK_scalar (s0 : BitVec 32) (msgs : Nat → List KMsg) (P S : Nat → BitVec 32) (h : IsPhaseK s0 msgs P S) (n : Nat) :
    stream (by decide) (outAt K1.block (K1.init s0) msgs) n = P n := by
  have inv : ∀ k, (msgs k).foldl K1.onMessage (stateAt K1.block (K1.init s0) msgs k) = ⟨P k, S k⟩ := by
    intro k
    induction k with
    | zero => rw [foldl_k1]; simp only [stateAt, K1.init]; rw [← h.start]
    | succ k ih =>
      rw [foldl_k1]
      simp only [stateAt, K1.block, ih]
      rw [← h.next]
  rw [stream_eq (y := P)]
  intro k j
  obtain rfl : j = 0 := Subsingleton.elim _ _
  simp [outAt, K1.block, inv]

theorem K4.step_mk' (p s : BitVec 32) (i : Fin 4) :
    (K4.mk' p s).phase i + (K4.mk' p s).inc i = (K4.mk' (p + s + s + s + s) s).phase i := by
  have e : ∀ q : BitVec 32, 4 * q = q + q + q + q := fun q => by
    apply BitVec.eq_of_toNat_eq; simp [BitVec.toNat_mul, BitVec.toNat_add]; omega
  simp only [K4.mk', e]
  simp only [BitVec.add_comm, BitVec.add_assoc, ladd]

/-- **C29**, SSE and NEON, `__phasor_k~f`: for every sequence of frequency and phase messages between blocks the phase behind
output sample `n` is the exact phase, the same as in the scalar code -/
theorem phasorK_simd (s0 : BitVec 32) (msgs : Nat → List KMsg) (P S : Nat → BitVec 32)
    (h : IsPhaseK s0 (atBlocks 4 [] msgs) P S) (n : Nat) :
    stream (by decide) (outAt K4.block (K4.init s0) msgs) n = P n := by
  have q : ∀ k j, 0 < j → j < 4 → P (k * 4 + j) = P (k * 4 + (j - 1)) + S (k * 4 + (j - 1)) ∧
      S (k * 4 + j) = S (k * 4 + (j - 1)) := by
    intro k j h0 h4
    have := h.next (k * 4 + (j - 1))
    rw [show k * 4 + (j - 1) + 1 = k * 4 + j by omega, atBlocks_pos 4 [] msgs k j h0 h4] at this
    exact ⟨(Prod.mk.inj this).1, (Prod.mk.inj this).2⟩
  have lanes : ∀ k (j : Fin 4), (K4.mk' (P (k * 4)) (S (k * 4))).phase j = P (k * 4 + j) := by
    intro k j
    have h1 := q k 1 (by decide) (by decide)
    have h2 := q k 2 (by decide) (by decide)
    have h3 := q k 3 (by decide) (by decide)
    simp only [Nat.sub_self, Nat.add_zero, Nat.reduceSub] at h1 h2 h3
    have e2 : ∀ q : BitVec 32, 2 * q = q + q := fun q => by
      apply BitVec.eq_of_toNat_eq; simp [BitVec.toNat_mul, BitVec.toNat_add]; omega
    have e3 : ∀ q : BitVec 32, 3 * q = q + q + q := fun q => by
      apply BitVec.eq_of_toNat_eq; simp [BitVec.toNat_mul, BitVec.toNat_add]; omega
    fin_cases j
    · simp [K4.mk']
    · simp [K4.mk', h1, BitVec.add_comm]
    · have : BitVec.ofNat 32 2 * S (k * 4) = _ := e2 (S (k * 4))
      simp only [K4.mk', this, h2, h1]
      simp only [BitVec.add_comm, BitVec.add_assoc, ladd]
    · have : BitVec.ofNat 32 3 * S (k * 4) = _ := e3 (S (k * 4))
      simp only [K4.mk', this, h3, h2, h1]
      simp only [BitVec.add_comm, BitVec.add_assoc, ladd]
  have inv : ∀ k, (msgs k).foldl K4.onMessage (stateAt K4.block (K4.init s0) msgs k) = K4.mk' (P (k * 4)) (S (k * 4)) := by
    intro k
    induction k with
    | zero =>
      have := h.start
      rw [show atBlocks 4 [] msgs 0 = msgs 0 from rfl] at this
      rw [stateAt, init_k4, foldl_k4, ← this]
    | succ k ih =>
      have st : stateAt K4.block (K4.init s0) msgs (k + 1) = K4.mk' (P (k * 4 + 3) + S (k * 4 + 3)) (S (k * 4 + 3)) := by
        have h1 := q k 1 (by decide) (by decide)
        have h2 := q k 2 (by decide) (by decide)
        have h3 := q k 3 (by decide) (by decide)
        simp only [Nat.sub_self, Nat.add_zero, Nat.reduceSub] at h1 h2 h3
        simp only [stateAt, K4.block, ih]
        have e : (fun i => (K4.mk' (P (k * 4)) (S (k * 4))).phase i + (K4.mk' (P (k * 4)) (S (k * 4))).inc i) =
            (K4.mk' (P (k * 4 + 3) + S (k * 4 + 3)) (S (k * 4 + 3))).phase := by
          funext i
          rw [K4.step_mk', h3.1, h3.2, h2.1, h2.2, h1.1, h1.2]
        rw [e, h3.2, h2.2, h1.2]
        rfl
      have := h.next (k * 4 + 3)
      rw [show k * 4 + 3 + 1 = (k + 1) * 4 by omega, atBlocks_zero 4 (by decide)] at this
      rw [st, foldl_k4, ← this]
  rw [stream_eq (y := P)]
  intro k j
  simp only [outAt, K4.block, inv]
  exact lanes k j

/-- there is a phase for every sequence of messages, so the theorems are not empty; with step `s`, no messages and `n`
samples it is `n * s` -/
example (s : BitVec 32) : IsPhaseK s (fun _ => []) (fun n => total (fun _ => s) n) (fun _ => s) :=
  ⟨rfl, fun _ => rfl⟩

/-! ### AVX -/

/-- **C29 fails for AVX**: the wrapping of the float phase halves a phase in [2, 4) instead of subtracting 1 -/
theorem avx_wrap_halves (b : BitVec 32) (h : b.toNat / 2 ^ 23 = 128) : value (avxWrap b) = value b / 2 := by
  have e : (avxWrap b).toNat = 127 * 2 ^ 23 + b.toNat % 2 ^ 23 := by
    have h1 : (~~~ 0xFF800000#32 &&& b).toNat = b.toNat % 2 ^ 23 := by
      rw [BitVec.toNat_and, show (~~~ 0xFF800000#32).toNat = 2 ^ 23 - 1 by decide, Nat.and_comm, Nat.and_two_pow_sub_one_eq_mod]
    rw [avxWrap, BitVec.toNat_or, h1, show (0x3F800000#32).toNat = 127 <<< 23 by decide, Nat.or_comm,
      ← Nat.shiftLeft_add_eq_or_of_lt (Nat.mod_lt _ (by decide)), Nat.shiftLeft_eq]
  have m : b.toNat % 2 ^ 23 < 2 ^ 23 := Nat.mod_lt _ (by decide)
  have e1 : (127 * 2 ^ 23 + b.toNat % 2 ^ 23) % 2 ^ 23 = b.toNat % 2 ^ 23 := by omega
  have e2 : (127 * 2 ^ 23 + b.toNat % 2 ^ 23) / 2 ^ 23 = 127 := by omega
  rw [value, value, e, e1, e2, h]
  norm_num

/-- phases in [1, 2) are kept -/
theorem avx_wrap_keeps (b : BitVec 32) (h : b.toNat / 2 ^ 23 = 127) : value (avxWrap b) = value b := by
  have e : (avxWrap b).toNat = 127 * 2 ^ 23 + b.toNat % 2 ^ 23 := by
    have h1 : (~~~ 0xFF800000#32 &&& b).toNat = b.toNat % 2 ^ 23 := by
      rw [BitVec.toNat_and, show (~~~ 0xFF800000#32).toNat = 2 ^ 23 - 1 by decide, Nat.and_comm, Nat.and_two_pow_sub_one_eq_mod]
    rw [avxWrap, BitVec.toNat_or, h1, show (0x3F800000#32).toNat = 127 <<< 23 by decide, Nat.or_comm,
      ← Nat.shiftLeft_add_eq_or_of_lt (Nat.mod_lt _ (by decide)), Nat.shiftLeft_eq]
  have : (avxWrap b).toNat = b.toNat := by omega
  rw [value, value, this]

/-- 2.5 (phase 1.5 of a cycle, i.e. a half past the wrap) becomes 1.25 instead of 1.5 -/
example : value 0x40200000#32 = 5 / 2 ∧ value (avxWrap 0x40200000#32) = 5 / 4 := by
  constructor
  · rw [value, show (0x40200000#32).toNat = 0x40200000 from rfl]; norm_num
  · rw [avx_wrap_halves _ (by decide), value, show (0x40200000#32).toNat = 0x40200000 from rfl]; norm_num

end Verif.Phasor
