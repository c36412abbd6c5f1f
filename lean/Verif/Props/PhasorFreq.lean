import Verif.PhasorFreq
import Verif.Props.Phasor
import Verif.Props.SigTrig
import Mathlib.Analysis.SpecialFunctions.Trigonometric.Bounds
/-!
# C76: phasor~ and osc~ have the frequency they are told

Specification: `Turns r f0 msgs φ F` — an ideal phase `φ` (in turns, not wrapped) that starts at 0, advances by `F n / r` from sample
`n` to the next, where `F` is the last frequency received (`f0` at first), and is set by phase messages.
-/
namespace Verif.Phasor
open Verif.Simd

/-! ### specification -/

/-- what a message does to phase and frequency -/
def hear (x : ℚ × ℚ) : FMsg → ℚ × ℚ
  | .freq f => (x.1, f)
  | .phase p => (p, x.2)

/-- phase in turns and frequency in Hz before sample `n`, after the messages; `r` samples per second -/
structure Turns (r f0 : ℚ) (msgs : ℕ → List FMsg) (φ F : ℕ → ℚ) : Prop where
  start : (φ 0, F 0) = (msgs 0).foldl hear (0, f0)
  next : ∀ n, (φ (n + 1), F (n + 1)) = (msgs (n + 1)).foldl hear (φ n + F n / r, F n)

/-- frequencies below half the sample rate, phases that are not positive whole numbers -/
def Fine (r : ℚ) : FMsg → Prop
  | .freq f => |f| < r / 2
  | .phase p => ¬ ∃ k : ℕ, 0 < k ∧ p = k

/-- equal up to `e` and whole turns -/
def Near (e a b : ℚ) : Prop := ∃ k : ℤ, |a + k - b| ≤ e

/-! ### conversions -/

theorem cut_bounds (q : ℚ) : |(cut q : ℚ) - q| < 1 ∧ |(cut q : ℚ)| ≤ |q| := by
  unfold cut
  split
  · next h =>
    have h1 := Int.ceil_lt_add_one q
    have h2 := Int.le_ceil q
    have h3 : ⌈q⌉ ≤ 0 := Int.ceil_le.2 (by simpa using h.le)
    have h3' : (⌈q⌉ : ℚ) ≤ 0 := by exact_mod_cast h3
    exact ⟨abs_lt.2 ⟨by linarith, by linarith⟩, by rw [abs_of_nonpos h3', abs_of_neg h]; linarith⟩
  · next h =>
    have h1 := Int.lt_floor_add_one q
    have h2 := Int.floor_le q
    have h3' : (0 : ℚ) ≤ ⌊q⌋ := by exact_mod_cast Int.floor_nonneg.2 (not_lt.1 h)
    exact ⟨abs_lt.2 ⟨by linarith, by linarith⟩, by rw [abs_of_nonneg h3', abs_of_nonneg (not_lt.1 h)]; linarith⟩

theorem loopUp_spec (k : ℕ) (p : ℚ) (h : -p ≤ k) :
    0 ≤ loopUp k p ∧ (∃ z : ℤ, loopUp k p = p + z) ∧ (0 ≤ p → loopUp k p = p) ∧ (p < 0 → loopUp k p < 1) := by
  induction k generalizing p with
  | zero =>
    simp only [Nat.cast_zero] at h
    exact ⟨by simpa [loopUp] using h, ⟨0, by simp [loopUp]⟩, fun _ => rfl, fun h' => absurd h' (by linarith)⟩
  | succ k ih =>
    push_cast at h
    unfold loopUp
    split
    · next hp =>
      obtain ⟨a, ⟨z, hz⟩, b, c⟩ := ih (p + 1) (by linarith)
      refine ⟨a, ⟨z + 1, by rw [hz]; push_cast; ring⟩, fun h' => absurd hp (not_lt.2 h'), fun _ => ?_⟩
      by_cases hq : p + 1 < 0
      · exact c hq
      · rw [b (not_lt.1 hq)]; linarith
    · next hp => exact ⟨not_lt.1 hp, ⟨0, by simp⟩, fun _ => rfl, fun h' => absurd h' hp⟩

theorem loopDown_spec (k : ℕ) (p : ℚ) (h : p ≤ k + 1) (h0 : 0 ≤ p) :
    0 ≤ loopDown k p ∧ loopDown k p ≤ 1 ∧ (∃ z : ℤ, loopDown k p = p + z) ∧ (loopDown k p = 0 → p = 0) := by
  induction k generalizing p with
  | zero => exact ⟨h0, by simpa [loopDown] using h, ⟨0, by simp [loopDown]⟩, fun h => h⟩
  | succ k ih =>
    push_cast at h
    unfold loopDown
    split
    · next hp =>
      obtain ⟨a, b, ⟨z, hz⟩, c⟩ := ih (p - 1) (by linarith) (by linarith)
      exact ⟨a, b, ⟨z - 1, by rw [hz]; push_cast; ring⟩, fun h' => by have := c h'; linarith⟩
    · next hp => exact ⟨h0, not_lt.1 hp, ⟨0, by simp⟩, fun h => h⟩

/-- the loops end with a number in [0, 1] that differs from the given one by whole turns; it is 1 exactly for the positive whole
numbers -/
theorem wrapPhase_done (p : ℚ) : 0 ≤ wrapPhase p ∧ wrapPhase p ≤ 1 ∧ (∃ z : ℤ, wrapPhase p = p + z) ∧
    (wrapPhase p = 1 ↔ ∃ k : ℕ, 0 < k ∧ p = k) := by
  have c1 : -p ≤ (⌈-p⌉.toNat : ℚ) := by
    refine (Int.le_ceil _).trans ?_
    exact_mod_cast Int.self_le_toNat _
  obtain ⟨a, ⟨z, hz⟩, b, c⟩ := loopUp_spec _ p c1
  have c2 : loopUp ⌈-p⌉.toNat p ≤ (⌈p⌉.toNat : ℚ) + 1 := by
    by_cases hp : p < 0
    · have := c hp
      have : (0 : ℚ) ≤ (⌈p⌉.toNat : ℚ) := Nat.cast_nonneg _
      linarith
    · rw [b (not_lt.1 hp)]
      have : p ≤ (⌈p⌉.toNat : ℚ) := (Int.le_ceil _).trans (by exact_mod_cast Int.self_le_toNat _)
      linarith
  obtain ⟨d, e, ⟨y, hy⟩, f⟩ := loopDown_spec _ _ c2 a
  have s : wrapPhase p = loopDown ⌈p⌉.toNat (loopUp ⌈-p⌉.toNat p) := rfl
  refine ⟨d, e, ⟨z + y, by rw [s, hy, hz]; push_cast; ring⟩, ?_⟩
  constructor
  · intro h1
    by_cases hp : p < 0
    · have hl := c hp
      have : loopDown ⌈p⌉.toNat (loopUp ⌈-p⌉.toNat p) = loopUp ⌈-p⌉.toNat p := by
        cases ⌈p⌉.toNat with
        | zero => rfl
        | succ n => rw [loopDown, if_neg (by linarith)]
      rw [s, this] at h1
      linarith
    · have hp := not_lt.1 hp
      have hl : p + z + y = 1 := by rw [← hz, ← hy, ← s, h1]
      have hk : p = ((1 - z - y : ℤ) : ℚ) := by push_cast; linarith
      have : 0 ≤ (1 - z - y : ℤ) := by
        have : (0 : ℚ) ≤ ((1 - z - y : ℤ) : ℚ) := hk ▸ hp
        exact_mod_cast this
      obtain ⟨n, hn⟩ := Int.eq_ofNat_of_zero_le this
      rw [hn] at hk
      refine ⟨n, ?_, by simpa using hk⟩
      rcases Nat.eq_zero_or_pos n with rfl | h
      · have : p = 0 := by simpa using hk
        subst this
        norm_num [wrapPhase, loopUp, loopDown] at h1
      · exact h
  · rintro ⟨k, hk, rfl⟩
    obtain ⟨w, hw⟩ : ∃ w : ℤ, wrapPhase (k : ℚ) = w := ⟨k + z + y, by rw [s, hy, hz]; push_cast; ring⟩
    rcases eq_or_lt_of_le d with h | h
    · have := f h.symm
      rw [b (Nat.cast_nonneg _)] at this
      have : k = 0 := by exact_mod_cast this
      omega
    · rw [← s, hw] at h
      rw [← s, hw] at e
      rw [hw]
      have h1 : 0 < w := by exact_mod_cast h
      have h2 : w ≤ 1 := by exact_mod_cast e
      have : w = 1 := by omega
      rw [this]; rfl

theorem rne_near (x : ℚ) : |(rne x : ℚ) - x| ≤ 1 / 2 := by
  have h1 := Int.lt_floor_add_one x
  have h2 := Int.floor_le x
  unfold rne
  rw [abs_le]
  split
  · constructor <;> linarith
  · split
    · push_cast; constructor <;> linarith
    · split
      · constructor <;> linarith
      · push_cast; constructor <;> linarith

/-- a phase word stands for its 2^32-th part of a turn -/
def turn (p : BitVec 32) : ℚ := (p.toNat : ℚ) / 4294967296

theorem turn_ofInt (z : ℤ) : ∃ k : ℤ, turn (BitVec.ofInt 32 z) = (z : ℚ) / 4294967296 + k := by
  refine ⟨-(z / 4294967296), ?_⟩
  have h : ((BitVec.ofInt 32 z).toNat : ℤ) = z % 4294967296 := by
    rw [BitVec.toNat_ofInt]
    have : 0 ≤ z % 4294967296 := Int.emod_nonneg _ (by norm_num)
    norm_num
    omega
  have h2 : ((BitVec.ofInt 32 z).toNat : ℚ) = (z : ℚ) - 4294967296 * ((z / 4294967296 : ℤ) : ℚ) := by
    have : ((BitVec.ofInt 32 z).toNat : ℤ) = z - 4294967296 * (z / 4294967296) := by rw [h]; omega
    exact_mod_cast this
  rw [turn, h2]
  push_cast
  field_simp
  ring

theorem turn_add (p s : BitVec 32) : ∃ k : ℤ, turn (p + s) = turn p + turn s + k := by
  have h : (p + s).toNat = p.toNat + s.toNat - 4294967296 * ((p.toNat + s.toNat) / 4294967296) := by
    rw [BitVec.toNat_add]; omega
  refine ⟨-((p.toNat + s.toNat) / 4294967296 : ℕ), ?_⟩
  have h' : ((p + s).toNat : ℚ) = p.toNat + s.toNat - 4294967296 * (((p.toNat + s.toNat) / 4294967296 : ℕ) : ℚ) := by
    have : 4294967296 * ((p.toNat + s.toNat) / 4294967296) ≤ p.toNat + s.toNat := by omega
    rw [h, Nat.cast_sub this]
    push_cast
    rfl
  rw [turn, turn, turn, h']
  simp only [Int.cast_neg, Int.cast_natCast]
  field_simp
  ring

theorem Near.add {e e' : ℚ} {p s : BitVec 32} {a b : ℚ} (h : Near e (turn p) a) (h' : Near e' (turn s) b) : Near (e + e') (turn (p + s)) (a + b) := by
  obtain ⟨k, hk⟩ := h
  obtain ⟨l, hl⟩ := h'
  obtain ⟨m, hm⟩ := turn_add p s
  refine ⟨k + l - m, ?_⟩
  have : turn (p + s) + ((k + l - m : ℤ) : ℚ) - (a + b) = (turn p + k - a) + (turn s + l - b) := by rw [hm]; push_cast; ring
  rw [this]
  exact (abs_add_le _ _).trans (add_le_add hk hl)

theorem Near.mono {e e' a b : ℚ} (h : Near e a b) (he : e ≤ e') : Near e' a b := by
  obtain ⟨k, hk⟩ := h
  exact ⟨k, hk.trans he⟩

theorem near_of_int {z : ℤ} {x d : ℚ} (h : |(z : ℚ) - x * 4294967296| ≤ d) : Near (d / 4294967296) (turn (BitVec.ofInt 32 z)) x := by
  obtain ⟨k, hk⟩ := turn_ofInt z
  refine ⟨-k, ?_⟩
  have : turn (BitVec.ofInt 32 z) + ((-k : ℤ) : ℚ) - x = (z - x * 4294967296) / 4294967296 := by
    rw [hk]; push_cast; field_simp; ring
  rw [this, abs_div, abs_of_pos (by norm_num : (0 : ℚ) < 4294967296)]
  gcongr

/-- a frequency below half the sample rate fits and its step is right up to 2^-32 of a turn -/
theorem stepWord_near {r f : ℚ} (hr : 0 < r) (hf : |f| < r / 2) : ∃ w, stepWord r f = some w ∧ Near (1 / 4294967296) (turn w) (f / r) := by
  obtain ⟨h1, h2⟩ := cut_bounds (f * (4294967296 / r))
  have h3 : |f * (4294967296 / r)| < 2147483648 := by
    rw [abs_mul, abs_of_pos (by positivity : 0 < 4294967296 / r), ← mul_div_assoc, div_lt_iff₀ hr]
    linarith
  have h4 := h2.trans_lt h3
  rw [abs_lt] at h4
  have h5 : -2147483648 < cut (f * (4294967296 / r)) := by exact_mod_cast h4.1
  have h6 : cut (f * (4294967296 / r)) < 2147483648 := by exact_mod_cast h4.2
  refine ⟨BitVec.ofInt 32 (cut (f * (4294967296 / r))), by simp only [stepWord]; rw [if_pos ⟨h5.le, h6⟩], near_of_int ?_⟩
  have : f / r * 4294967296 = f * (4294967296 / r) := by ring
  rw [this]
  exact h1.le

/-- a phase that is not a positive whole number fits -/
theorem phaseWord_near {p : ℚ} (hp : ¬ ∃ k : ℕ, 0 < k ∧ p = k) : ∃ w, phaseWord p = some w ∧ Near (1 / 4294967296) (turn w) p := by
  obtain ⟨a, b, ⟨z, hz⟩, c⟩ := wrapPhase_done p
  have hb : wrapPhase p < 1 := lt_of_le_of_ne b fun h => hp (c.1 h)
  obtain ⟨h1, h2⟩ := cut_bounds (wrapPhase p * 4294967296)
  have hn : 0 ≤ cut (wrapPhase p * 4294967296) := by
    unfold cut
    rw [if_neg (by linarith)]
    exact Int.floor_nonneg.2 (by linarith)
  have hl : cut (wrapPhase p * 4294967296) < 4294967296 := by
    rw [abs_of_nonneg (by exact_mod_cast hn), abs_of_nonneg (by linarith)] at h2
    have : (cut (wrapPhase p * 4294967296) : ℚ) < 4294967296 := by linarith
    exact_mod_cast this
  refine ⟨BitVec.ofInt 32 (cut (wrapPhase p * 4294967296)), by simp only [phaseWord]; rw [if_pos ⟨hn, hl⟩], ?_⟩
  obtain ⟨k, hk⟩ := near_of_int (x := wrapPhase p) h1.le
  refine ⟨k - z, ?_⟩
  have e : turn (BitVec.ofInt 32 (cut (wrapPhase p * 4294967296))) + ((k - z : ℤ) : ℚ) - p =
      turn (BitVec.ofInt 32 (cut (wrapPhase p * 4294967296))) + k - wrapPhase p := by
    generalize turn (BitVec.ofInt 32 (cut (wrapPhase p * 4294967296))) = T
    rw [hz]
    push_cast
    ring
  rw [e]
  exact hk

/-- **C76** (finding): a phase message with a positive whole number converts 2^32 to `hv_uint32_t`, which is undefined -/
theorem whole_phase_undefined {k : ℕ} (hk : 0 < k) : phaseWord k = none := by
  have h := (wrapPhase_done k).2.2.2.2 ⟨k, hk, rfl⟩
  simp only [phaseWord, h]
  norm_num [cut]

/-- **C76** (finding): and so is a frequency from half the sample rate on -/
theorem high_frequency_undefined {r f : ℚ} (hr : 0 < r) (hf : r / 2 ≤ f) : stepWord r f = none := by
  have h3 : 2147483648 ≤ f * (4294967296 / r) := by
    rw [← mul_div_assoc, le_div_iff₀ hr]
    linarith
  have : 2147483648 ≤ cut (f * (4294967296 / r)) := by
    unfold cut
    rw [if_neg (by linarith)]
    exact Int.le_floor.2 (by exact_mod_cast h3)
  simp only [stepWord]
  rw [if_neg (by omega)]

/-! ### frequency and phase by messages -/

/-- the state of the code against the ideal one -/
def Holds (r e : ℚ) (c : BitVec 32 × BitVec 32) (x : ℚ × ℚ) : Prop :=
  Near e (turn c.1) x.1 ∧ Near (1 / 4294967296) (turn c.2) (x.2 / r)

def setK (ps : BitVec 32 × BitVec 32) (m : KMsg) : BitVec 32 × BitVec 32 :=
  match m with | .freq s => (ps.1, s) | .phase p => (p, ps.2)

theorem holds_foldl {r e : ℚ} (hr : 0 < r) (he : 1 / 4294967296 ≤ e) (l : List FMsg) (hl : ∀ m ∈ l, Fine r m) (c : BitVec 32 × BitVec 32)
    (x : ℚ × ℚ) (h : Holds r e c x) : Holds r e ((l.map (FMsg.toK r)).foldl setK c) (l.foldl hear x) := by
  induction l generalizing c x with
  | nil => exact h
  | cons m l ih =>
    rw [List.map_cons, List.foldl_cons, List.foldl_cons]
    refine ih (fun m h => hl m (List.mem_cons_of_mem _ h)) _ _ ?_
    have hm := hl m List.mem_cons_self
    cases m with
    | freq f =>
      obtain ⟨w, hw, hn⟩ := stepWord_near hr hm
      refine ⟨h.1, ?_⟩
      simpa [FMsg.toK, setK, hear, hw] using hn
    | phase p =>
      obtain ⟨w, hw, hn⟩ := phaseWord_near hm
      refine ⟨?_, h.2⟩
      simpa [FMsg.toK, setK, hear, hw] using hn.mono he

theorem phaseK_near {r f0 : ℚ} (hr : 0 < r) (hf0 : |f0| < r / 2) {msgs : ℕ → List FMsg} (hm : ∀ n, ∀ m ∈ msgs n, Fine r m)
    {φ F : ℕ → ℚ} (hT : Turns r f0 msgs φ F) {P S : ℕ → BitVec 32}
    (hP : IsPhaseK ((stepWord r f0).getD 0) (fun n => (msgs n).map (FMsg.toK r)) P S) (n : ℕ) :
    Holds r ((n + 1) / 4294967296) (P n, S n) (φ n, F n) := by
  induction n with
  | zero =>
    have := hP.start
    rw [hT.start]
    rw [show (P 0, S 0) = ((msgs 0).map (FMsg.toK r)).foldl setK (0, (stepWord r f0).getD 0) from this]
    refine holds_foldl hr (by norm_num) _ (hm 0) _ _ ⟨⟨0, by norm_num [turn]⟩, ?_⟩
    obtain ⟨w, hw, hn⟩ := stepWord_near hr hf0
    simpa [hw] using hn
  | succ n ih =>
    have := hP.next n
    rw [hT.next n]
    rw [show (P (n + 1), S (n + 1)) = ((msgs (n + 1)).map (FMsg.toK r)).foldl setK (P n + S n, S n) from this]
    refine holds_foldl hr ?_ _ (hm (n + 1)) _ _ ⟨?_, ih.2⟩
    · push_cast
      have : (0 : ℚ) ≤ n := Nat.cast_nonneg _
      gcongr
      linarith
    · have := Near.add ih.1 ih.2
      refine this.mono (le_of_eq ?_)
      push_cast
      ring

theorem output_near {e : ℚ} {p : BitVec 32} {x : ℚ} (h : Near e (turn p) x) : Near (e + 1 / 8388608) (output p) x := by
  obtain ⟨k, hk⟩ := h
  obtain ⟨_, _, h1, h2⟩ := output_range p
  refine ⟨k, ?_⟩
  norm_num at h1 h2
  rw [turn] at hk
  rw [abs_le] at hk ⊢
  constructor <;> linarith

theorem phaseK_exists (s0 : BitVec 32) (msgs : ℕ → List KMsg) : ∃ P S, IsPhaseK s0 msgs P S := by
  let X : ℕ → BitVec 32 × BitVec 32 := fun n => Nat.rec ((msgs 0).foldl setK (0, s0)) (fun n x => (msgs (n + 1)).foldl setK (x.1 + x.2, x.2)) n
  exact ⟨fun n => (X n).1, fun n => (X n).2, rfl, fun n => rfl⟩

theorem turns_exists (r f0 : ℚ) (msgs : ℕ → List FMsg) : ∃ φ F, Turns r f0 msgs φ F := by
  let X : ℕ → ℚ × ℚ := fun n => Nat.rec ((msgs 0).foldl hear (0, f0)) (fun n x => (msgs (n + 1)).foldl hear (x.1 + x.2 / r, x.2)) n
  exact ⟨fun n => (X n).1, fun n => (X n).2, rfl, fun n => rfl⟩

/-- the scalar program: initial frequency `f0` (the argument), `msgs n` before sample `n` -/
def scalarOut (r f0 : ℚ) (msgs : ℕ → List FMsg) (n : ℕ) : ℚ :=
  output (stream (by decide) (outAt K1.block (K1.init ((stepWord r f0).getD 0)) fun n => (msgs n).map (FMsg.toK r)) n)

/-- the SSE and NEON programs: `msgs k` before block `k` of four samples -/
def simdOut (r f0 : ℚ) (msgs : ℕ → List FMsg) (n : ℕ) : ℚ :=
  output (stream (by decide) (outAt K4.block (K4.init ((stepWord r f0).getD 0)) fun n => (msgs n).map (FMsg.toK r)) n)

/-- **C76** scalar code: for every history of frequencies below half the sample rate and phases, the output is the ideal phase
modulo whole turns, up to 2^-23 and 2^-32 for each sample so far -/
theorem phasor_turns_scalar {r f0 : ℚ} (hr : 0 < r) (hf0 : |f0| < r / 2) {msgs : ℕ → List FMsg} (hm : ∀ n, ∀ m ∈ msgs n, Fine r m)
    {φ F : ℕ → ℚ} (hT : Turns r f0 msgs φ F) (n : ℕ) :
    Near ((n + 1) / 4294967296 + 1 / 8388608) (scalarOut r f0 msgs n) (φ n) := by
  obtain ⟨P, S, hP⟩ := phaseK_exists ((stepWord r f0).getD 0) fun n => (msgs n).map (FMsg.toK r)
  rw [scalarOut, phasorK_scalar _ _ _ _ hP]
  exact output_near (phaseK_near hr hf0 hm hT hP n).1

theorem fine_atBlocks {r : ℚ} {msgs : ℕ → List FMsg} (hm : ∀ n, ∀ m ∈ msgs n, Fine r m) (n : ℕ) : ∀ m ∈ atBlocks 4 [] msgs n, Fine r m := by
  intro m h
  unfold atBlocks at h
  split at h
  · exact hm _ m h
  · simp at h

theorem map_atBlocks (r : ℚ) (msgs : ℕ → List FMsg) :
    (atBlocks 4 [] fun n => (msgs n).map (FMsg.toK r)) = fun n => (atBlocks 4 [] msgs n).map (FMsg.toK r) := by
  funext n
  unfold atBlocks
  split <;> rfl

/-- **C76** SSE and NEON code -/
theorem phasor_turns_simd {r f0 : ℚ} (hr : 0 < r) (hf0 : |f0| < r / 2) {msgs : ℕ → List FMsg} (hm : ∀ n, ∀ m ∈ msgs n, Fine r m)
    {φ F : ℕ → ℚ} (hT : Turns r f0 (atBlocks 4 [] msgs) φ F) (n : ℕ) :
    Near ((n + 1) / 4294967296 + 1 / 8388608) (simdOut r f0 msgs n) (φ n) := by
  obtain ⟨P, S, hP⟩ := phaseK_exists ((stepWord r f0).getD 0) (atBlocks 4 [] fun n => (msgs n).map (FMsg.toK r))
  rw [simdOut, phasorK_simd _ _ _ _ hP]
  rw [map_atBlocks] at hP
  exact output_near (phaseK_near hr hf0 (fine_atBlocks hm) hT hP n).1

/-- without messages the ideal phase is `n * f / r` -/
theorem turns_constant (r f : ℚ) : Turns r f (fun _ => []) (fun n => n * f / r) fun _ => f := by
  refine ⟨by simp, fun n => ?_⟩
  simp only [List.foldl_nil, Prod.mk.injEq, and_true]
  push_cast
  ring

/-- so 440 Hz at 44100 samples per second is 440 Hz, backwards for -440 -/
example (n : ℕ) : Near ((n + 1) / 4294967296 + 1 / 8388608) (scalarOut 44100 440 (fun _ => []) n) (n * 440 / 44100) ∧
    Near ((n + 1) / 4294967296 + 1 / 8388608) (simdOut 44100 (-440) (fun _ => []) n) (n * -440 / 44100) := by
  have a := phasor_turns_scalar (by norm_num) (by norm_num [abs_of_pos]) (by simp) (turns_constant 44100 440) n
  refine ⟨a, ?_⟩
  have b := phasor_turns_simd (r := 44100) (f0 := -440) (msgs := fun _ => []) (φ := fun n => n * (-440) / 44100) (F := fun _ => -440) (by norm_num)
    (by norm_num [abs_of_pos]) (by simp) ?_ n
  · exact b
  have e : atBlocks 4 [] (fun _ => ([] : List FMsg)) = fun _ => [] := by funext n; unfold atBlocks; split <;> rfl
  rw [e]
  exact turns_constant _ _

/-- messages in the middle: a second frequency and a phase -/
example : ∃ φ F, Turns 48000 100 (fun n => if n = 3 then [.phase (1 / 4), .freq (-200)] else []) φ F ∧
    ∀ m ∈ [FMsg.phase (1 / 4), .freq (-200)], Fine 48000 m := by
  obtain ⟨φ, F, h⟩ := turns_exists 48000 100 fun n => if n = 3 then [.phase (1 / 4), .freq (-200)] else []
  refine ⟨φ, F, h, ?_⟩
  simp only [List.mem_cons, List.not_mem_nil, or_false, forall_eq_or_imp, forall_eq, Fine]
  refine ⟨?_, by norm_num [abs_of_pos]⟩
  rintro ⟨k, hk, h⟩
  have : (1 : ℚ) ≤ k := by exact_mod_cast hk
  linarith

/-! ### frequency as a signal -/

/-- the ideal phase before sample `n` for a frequency signal `x` and phase messages -/
def IsTurn (r : ℚ) (x : ℕ → ℚ) (set : ℕ → Option ℚ) (φ : ℕ → ℚ) : Prop :=
  φ 0 = (set 0).getD 0 ∧ ∀ n, φ (n + 1) = (set (n + 1)).getD (φ n + x n / r)

/-- a phase message before a block, converted -/
def toSet (m : Option ℚ) : Option (BitVec 32) := m.map fun p => (phaseWord p).getD 0

theorem phase_near {r : ℚ} {x : ℕ → ℚ} {step : ℕ → BitVec 32} (hs : ∀ n, Near (1 / 4294967296) (turn (step n)) (x n / r))
    {set : ℕ → Option ℚ} (hset : ∀ n p, set n = some p → ¬ ∃ k : ℕ, 0 < k ∧ p = k) {φ : ℕ → ℚ} (hφ : IsTurn r x set φ)
    {P : ℕ → BitVec 32} (hP : IsPhase step (fun n => toSet (set n)) P) (n : ℕ) : Near ((n + 1) / 4294967296) (turn (P n)) (φ n) := by
  induction n with
  | zero =>
    rw [hP 0, hφ.1]
    cases h : set 0 with
    | none => exact ⟨0, by norm_num [toSet, turn, h]⟩
    | some p =>
      obtain ⟨w, hw, hn⟩ := phaseWord_near (hset _ _ h)
      simpa [toSet, hw, h] using hn
  | succ n ih =>
    rw [hP (n + 1), hφ.2 n]
    cases h : set (n + 1) with
    | none =>
      simp only [toSet, h, Option.map_none, Option.getD_none, D_succ_succ, D_zero]
      refine (ih.add (hs n)).mono (le_of_eq ?_)
      push_cast
      ring
    | some p =>
      obtain ⟨w, hw, hn⟩ := phaseWord_near (hset _ _ h)
      simp only [toSet, h, Option.map_some, hw, Option.getD_some]
      refine hn.mono ?_
      have : (0 : ℚ) ≤ n := Nat.cast_nonneg _
      push_cast
      gcongr
      linarith

theorem scaled_small {r x : ℚ} (hr : 0 < r) (hx : |x| < r / 2) : |x * (4294967296 / r)| < 2147483648 := by
  rw [abs_mul, abs_of_pos (by positivity : 0 < 4294967296 / r), ← mul_div_assoc, div_lt_iff₀ hr]
  linarith

theorem scalarStep_near {r x : ℚ} (hr : 0 < r) (hx : |x| < r / 2) : Near (1 / 4294967296) (turn (scalarStep r x)) (x / r) := by
  obtain ⟨w, hw, hn⟩ := stepWord_near hr hx
  simpa [scalarStep, hw] using hn

theorem neonStep_near {r x : ℚ} (hr : 0 < r) (hx : |x| < r / 2) : Near (1 / 4294967296) (turn (neonStep r x)) (x / r) := by
  obtain ⟨h1, h2⟩ := cut_bounds (x * (4294967296 / r))
  have h4 := abs_lt.1 (h2.trans_lt (scaled_small hr hx))
  have h5 : -2147483648 < cut (x * (4294967296 / r)) := by exact_mod_cast h4.1
  have h6 : cut (x * (4294967296 / r)) < 2147483648 := by exact_mod_cast h4.2
  unfold neonStep
  rw [show max (-2147483648) (min 2147483647 (cut (x * (4294967296 / r)))) = cut (x * (4294967296 / r)) by omega]
  refine near_of_int ?_
  have : x / r * 4294967296 = x * (4294967296 / r) := by ring
  rw [this]
  exact h1.le

theorem sseStep_near {r x : ℚ} (hr : 0 < r) (hx : |x| < r / 2) : Near (1 / 4294967296) (turn (sseStep r x)) (x / r) := by
  have h1 := rne_near (x * (4294967296 / r))
  have h0 := abs_lt.1 (scaled_small hr hx)
  rw [abs_le] at h1
  have h5 : -2147483649 < rne (x * (4294967296 / r)) := by
    have : (-2147483649 : ℚ) < rne (x * (4294967296 / r)) := by linarith [h0.1]
    exact_mod_cast this
  have h6 : rne (x * (4294967296 / r)) < 2147483649 := by
    have : (rne (x * (4294967296 / r)) : ℚ) < 2147483649 := by linarith [h0.2]
    exact_mod_cast this
  have e : x / r * 4294967296 = x * (4294967296 / r) := by ring
  have : Near (1 / 2 / 4294967296) (turn (BitVec.ofInt 32 (rne (x * (4294967296 / r))))) (x / r) := near_of_int (by rw [e]; exact rne_near _)
  refine Near.mono ?_ (by norm_num : (1 / 2 / 4294967296 : ℚ) ≤ 1 / 4294967296)
  simp only [sseStep]
  split
  · exact this
  · have h7 : rne (x * (4294967296 / r)) = 2147483648 := by omega
    rw [h7] at this
    exact this

/-- the SSE program with the frequency signal `x`; `msgs k` is a phase message before block `k` -/
def sseSig (r : ℚ) (msgs : ℕ → Option ℚ) (x : ℕ → ℚ) (n : ℕ) : ℚ :=
  output (stream (by decide) (outAt (blockStep sse) zero (inputs 4 (fun k => toSet (msgs k)) fun n => sseStep r (x n))) n)

/-- NEON -/
def neonSig (r : ℚ) (msgs : ℕ → Option ℚ) (x : ℕ → ℚ) (n : ℕ) : ℚ :=
  output (stream (by decide) (outAt (blockStep neon) zero (inputs 4 (fun k => toSet (msgs k)) fun n => neonStep r (x n))) n)

/-- scalar -/
def scalarSig (r : ℚ) (msgs : ℕ → Option ℚ) (x : ℕ → ℚ) (n : ℕ) : ℚ :=
  output (stream (by decide) (outAt (blockStep none1) zero (inputs 1 (fun k => toSet (msgs k)) fun n => scalarStep r (x n))) n)

theorem toSet_atBlocks (N : ℕ) (msgs : ℕ → Option ℚ) : (atBlocks N none fun k => toSet (msgs k)) = fun n => toSet (atBlocks N none msgs n) := by
  funext n
  unfold atBlocks
  split <;> rfl

theorem atBlocks_fine {N : ℕ} {msgs : ℕ → Option ℚ} (hm : ∀ n p, msgs n = some p → ¬ ∃ k : ℕ, 0 < k ∧ p = k) (n : ℕ) (p : ℚ)
    (h : atBlocks N none msgs n = some p) : ¬ ∃ k : ℕ, 0 < k ∧ p = k := by
  unfold atBlocks at h
  split at h
  · exact hm _ _ h
  · simp at h

/-- **C76** SSE code with a frequency signal below half the sample rate: the output is the ideal phase *after* the step of the
sample -/
theorem phasor_signal_sse {r : ℚ} (hr : 0 < r) {x : ℕ → ℚ} (hx : ∀ n, |x n| < r / 2) {msgs : ℕ → Option ℚ}
    (hm : ∀ n p, msgs n = some p → ¬ ∃ k : ℕ, 0 < k ∧ p = k) {φ : ℕ → ℚ} (hφ : IsTurn r x (atBlocks 4 none msgs) φ) (n : ℕ) :
    Near ((n + 2) / 4294967296 + 1 / 8388608) (sseSig r msgs x n) (φ n + x n / r) := by
  rw [sseSig, phasor_sse _ _ _ (phaseRec_is _ _)]
  have hP := phaseRec_is (fun n => sseStep r (x n)) (atBlocks 4 none fun k => toSet (msgs k))
  rw [toSet_atBlocks] at hP ⊢
  refine output_near (((phase_near (fun n => sseStep_near hr (hx n)) (atBlocks_fine hm) hφ hP n).add (sseStep_near hr (hx n))).mono (le_of_eq ?_))
  ring

/-- **C76** NEON -/
theorem phasor_signal_neon {r : ℚ} (hr : 0 < r) {x : ℕ → ℚ} (hx : ∀ n, |x n| < r / 2) {msgs : ℕ → Option ℚ}
    (hm : ∀ n p, msgs n = some p → ¬ ∃ k : ℕ, 0 < k ∧ p = k) {φ : ℕ → ℚ} (hφ : IsTurn r x (atBlocks 4 none msgs) φ) (n : ℕ) :
    Near ((n + 2) / 4294967296 + 1 / 8388608) (neonSig r msgs x n) (φ n + x n / r) := by
  rw [neonSig, phasor_neon _ _ _ (phaseRec_is _ _)]
  have hP := phaseRec_is (fun n => neonStep r (x n)) (atBlocks 4 none fun k => toSet (msgs k))
  rw [toSet_atBlocks] at hP ⊢
  refine output_near (((phase_near (fun n => neonStep_near hr (hx n)) (atBlocks_fine hm) hφ hP n).add (neonStep_near hr (hx n))).mono (le_of_eq ?_))
  ring

/-- **C76** scalar: the ideal phase *before* the step of the sample -/
theorem phasor_signal_scalar {r : ℚ} (hr : 0 < r) {x : ℕ → ℚ} (hx : ∀ n, |x n| < r / 2) {msgs : ℕ → Option ℚ}
    (hm : ∀ n p, msgs n = some p → ¬ ∃ k : ℕ, 0 < k ∧ p = k) {φ : ℕ → ℚ} (hφ : IsTurn r x (atBlocks 1 none msgs) φ) (n : ℕ) :
    Near ((n + 1) / 4294967296 + 1 / 8388608) (scalarSig r msgs x n) (φ n) := by
  rw [scalarSig, phasor_scalar _ _ _ (phaseRec_is _ _)]
  have hP := phaseRec_is (fun n => scalarStep r (x n)) (atBlocks 1 none fun k => toSet (msgs k))
  rw [toSet_atBlocks] at hP ⊢
  exact output_near (phase_near (fun n => scalarStep_near hr (hx n)) (atBlocks_fine hm) hφ hP n)

/-! ### osc~ -/

section
open Verif.Sig Verif.Reduce
variable {μ : Type} {W : World ℝ μ} {log : ℕ → List (Sent μ)} {v : ℕ → ℕ → ℕ → ℝ}

/-- **C76** `[osc~]`: if its phasor is near an ideal phase `φ`, the output is near the cosine of `φ` turns -/
theorem osc_turns {a1 : ℝ} (hW : IsReal W) (h : Solves W (Osc.patch a1) log v) (t : ℕ) {e φ o : ℚ} (ho : v 12 0 t = (o : ℝ)) (h0 : 0 ≤ o)
    (h1 : o ≤ 1) (hn : Near e o φ) :
    |inSum v ((Osc.patch a1).ins Osc.out0 0) t - Real.cos (2 * Real.pi * φ)| ≤ 3 / 4000 + 2 * Real.pi * e := by
  have a := (osc_tilde hW h t (by rw [ho]; exact_mod_cast h0) (by rw [ho]; exact_mod_cast h1)).1
  rw [ho] at a
  obtain ⟨k, hk⟩ := hn
  have c : Real.cos (2 * Real.pi * (o : ℝ)) = Real.cos (2 * Real.pi * ((o + k : ℚ) : ℝ)) := by
    rw [← Real.cos_add_int_mul_two_pi _ k]
    congr 1
    push_cast
    ring
  have b := Real.abs_cos_sub_cos_le (2 * Real.pi * ((o + k : ℚ) : ℝ)) (2 * Real.pi * φ)
  rw [← mul_sub, abs_mul, abs_of_pos (by positivity : 0 < 2 * Real.pi)] at b
  have hk' : |((o + k : ℚ) : ℝ) - φ| ≤ e := by
    have : |((o + k - φ : ℚ) : ℝ)| ≤ e := by rw [← Rat.cast_abs]; exact_mod_cast hk
    push_cast at this ⊢
    exact this
  have d : 2 * Real.pi * |((o + k : ℚ) : ℝ) - φ| ≤ 2 * Real.pi * e := by gcongr
  rw [c] at a
  calc |inSum v ((Osc.patch a1).ins Osc.out0 0) t - Real.cos (2 * Real.pi * φ)|
      ≤ |inSum v ((Osc.patch a1).ins Osc.out0 0) t - Real.cos (2 * Real.pi * ((o + k : ℚ) : ℝ))| +
        |Real.cos (2 * Real.pi * ((o + k : ℚ) : ℝ)) - Real.cos (2 * Real.pi * φ)| := abs_sub_le _ _ _
    _ ≤ 3 / 4000 + 2 * Real.pi * e := add_le_add a (b.trans d)

/-- **C76** `[osc~ f]` with frequency and phase messages: the cosine of the ideal phase -/
theorem osc_frequency {a1 : ℝ} (hW : IsReal W) (h : Solves W (Osc.patch a1) log v) {r f0 : ℚ} (hr : 0 < r) (hf0 : |f0| < r / 2)
    {msgs : ℕ → List FMsg} (hm : ∀ n, ∀ m ∈ msgs n, Fine r m) {φ F : ℕ → ℚ} (hT : Turns r f0 (atBlocks 4 [] msgs) φ F)
    (ho : ∀ t, v 12 0 t = (simdOut r f0 msgs t : ℝ)) (t : ℕ) :
    |inSum v ((Osc.patch a1).ins Osc.out0 0) t - Real.cos (2 * Real.pi * φ t)| ≤
      3 / 4000 + 2 * Real.pi * ((t + 1) / 4294967296 + 1 / 8388608) := by
  obtain ⟨b0, b1, _⟩ := output_range (stream (by decide) (outAt K4.block (K4.init ((stepWord r f0).getD 0)) fun n => (msgs n).map (FMsg.toK r)) t)
  have := osc_turns hW h t (ho t) b0 b1.le (phasor_turns_simd hr hf0 hm hT t)
  push_cast at this
  exact this

end

end Verif.Phasor
