import Verif.DelayReadProofs
import Verif.Props.Snapshot
/-!
C64: `delwrite~` with `vd~`/`delread4~`; C65: `delwrite~` with `delread~`.

`x` is the signal sent to `delwrite~`, `d` the delay (in samples) at the inlet of `vd~`, both arbitrary functions of the sample
number, so `x` may depend on what `vd~` has put out before.  `HV_N_SIMD = 2^k`, `S` is the size of the table.
-/
namespace Verif.DelayLine
open Verif.Tab
open Verif.Msg (R Err)

/-! ### specification -/

/-- the value of `x` at time `t`, silent before sample 0, interpolated linearly between samples -/
def past (x : Nat → ℚ) (t : ℚ) : ℚ :=
  sig x ⌊t⌋ + (sig x (⌊t⌋ + 1) - sig x ⌊t⌋) * (t - (⌊t⌋ : ℚ))

/-- `d` limited to the range 0 … `S - 1` -/
def clamp (S : Nat) (d : ℚ) : ℚ := max (min d ((S : ℚ) - 1)) 0

theorem past_whole (x : Nat → ℚ) (n m : Nat) : past x ((n : ℚ) - m) = if m ≤ n then x (n - m) else 0 := by
  have e : ((n : ℚ) - m) = (((n : Int) - m : Int) : ℚ) := by push_cast; rfl
  unfold past
  rw [e, Int.floor_intCast]
  simp only [sub_self, mul_zero, add_zero, sig]
  by_cases h : m ≤ n
  · rw [if_neg (by omega), if_pos h]; congr 1; omega
  · rw [if_pos (by omega), if_neg h]

theorem past_eq (x : Nat → ℚ) (n : Int) (D : ℚ) : past x ((n : ℚ) - D) = interp x (n - ⌈D⌉) ((⌈D⌉ : ℚ) - D) := by
  have e : ⌊(n : ℚ) - D⌋ = n - ⌈D⌉ := by
    rw [sub_eq_add_neg, Int.floor_intCast_add, Int.floor_neg]; ring
  unfold past interp
  rw [e]
  congr 1
  push_cast
  ring

/-! ### start -/

/-- `delwrite~` sets its table up: the size is the length in samples rounded up to whole vectors, everything is zero -/
theorem start_ok {k : Nat} (hk : k ≤ 28) (junk : Nat → ℚ) (A : Alloc ℚ) (other : Nat) {len : ℚ} (hlen : 0 < len)
    (hb : ⌈len⌉ + 2 * 2 ^ k < 2 ^ 30) (h256 : 256 + 2 * 2 ^ k < 2 ^ 30) :
    ∃ s M, Writer.start k junk A other len = .ok s ∧ 0 < M ∧ s.tab.size = M * 2 ^ k ∧ s.tab.size = up k ⌈len⌉.toNat ∧
      M * 2 ^ k < 2 ^ 30 ∧ ∀ x, Fresh k M x s := by
  obtain ⟨T, i1, i2, i3, i4, i5⟩ := init_spec hk junk (n := 256) (by omega)
  have hpos : 0 < ⌈len⌉ := Int.ceil_pos.2 hlen
  have eN : ((2 ^ k : Nat) : Int) = 2 ^ k := by push_cast; rfl
  have hn : ⌈len⌉.toNat + 2 * 2 ^ k < 2 ^ 30 := by omega
  have hT0 : T.head = 0 := by
    simp only [init, bind, Except.bind] at i1
    split at i1
    · cases i1
    · cases i1; rfl
  obtain ⟨T', r1, r2, r3, r4, r5⟩ := resize_spec hk A i2.toOk hn
  have h0 : 0 < 2 ^ k := Nat.two_pow_pos k
  obtain ⟨u1, u2, u3⟩ := up_spec k ⌈len⌉.toNat (by omega) (by omega)
  obtain ⟨M, hM⟩ := Nat.dvd_of_mod_eq_zero u3
  have hM' : T'.size = M * 2 ^ k := by rw [r2, hM, Nat.mul_comm]
  have hMpos : 0 < M := by
    rcases Nat.eq_zero_or_pos M with h | h
    · subst h; omega
    · exact h
  have hzero : T'.buf.length = T'.size + 2 ^ k ∧ T'.allocated = T'.size + 2 ^ k ∧ ∀ p, p < T'.size + 2 ^ k → T'.buf[p]? = some 0 := by
    by_cases hs : up k ⌈len⌉.toNat = T.size
    · rw [r4 hs, i5, i4]
      refine ⟨by simp, by rw [i2.alloc, i4], fun p hp => ?_⟩
      rw [List.getElem?_replicate, if_pos hp]
    · obtain ⟨g1, g2, g3, g4⟩ := r5 hs
      refine ⟨by rw [g2.full, g2.alloc], g2.alloc, fun p hp => ?_⟩
      by_cases hp' : p < T.size
      · rw [g3 p hp' (by rw [g2.alloc]; exact hp), i5, List.getElem?_replicate, if_pos (by omega)]
      · exact g4 p (by omega) (by rw [g2.alloc]; exact hp)
  obtain ⟨z1, z2, z3⟩ := hzero
  have hceil : len.ceil = ⌈len⌉ := by rw [Rat.ceil_eq_neg_floor_neg]; rfl
  refine ⟨{ tab := T', w := { table := some 0, head := 0 }, period := T'.size, q := [(T'.size, .wrap)] }, M, ?_, hMpos, hM', r2,
    by omega, fun x => ⟨⟨by simp only [z1, hM'], hM', by simp only [z2, hM'], by omega, fun p hp _ => z3 p (by omega)⟩,
      by simp only [r3, hT0], rfl, rfl, hM', z3 _ (by omega), by simp only [hM']⟩⟩
  simp only [Writer.start, onResizeMessage, i1, bind, Except.bind, Flt.geZero, le_of_lt hlen, decide_true, if_true, hceil]
  rw [if_pos (by omega)]
  simp only [r1]

/-! ### `vd~` after `delwrite~` -/

/-- **`vd~` running after `delwrite~`** (partial, see the module comment and the findings below): every block is computed without a fault,
whatever the input and the delays, and lane `i` of block `b`, sample `n = b * N + i`, is the input at time `n - D`, `D` being the delay limited to
`0 … S - 1`, provided that `D ≤ S - N + i`, that `D` is a whole number or at least `N`, and that `n - D` is not between the
last sample before the start and the first one during the first cycle of the table. -/
theorem vd_after_write_partial {k : Nat} (hk : k ≤ 28) {junk : Nat → ℚ} {A : Alloc ℚ} {other : Nat} {len : ℚ} (hlen : 0 < len)
    (hb : ⌈len⌉ + 2 * 2 ^ k < 2 ^ 30) (h256 : 256 + 2 * 2 ^ k < 2 ^ 30) {s : Writer}
    (hs : Writer.start k junk A other len = .ok s) (x d : Nat → ℚ) (fuel : Nat) (b : Nat) :
    ∃ out, vdAfter k (fuel + 3) x d s b = .ok out ∧ out.length = 2 ^ k ∧ ∀ i < 2 ^ k, ∀ n D,
      n = b * 2 ^ k + i → D = clamp s.tab.size (d n) →
      D ≤ (s.tab.size : ℚ) - 2 ^ k + i →
      (D = (⌈D⌉ : ℚ) ∨ (2 ^ k : ℚ) ≤ D) →
      (s.tab.size ≤ b * 2 ^ k ∨ ¬ (-1 < (n : ℚ) - D ∧ (n : ℚ) - D < 0)) →
      out[i]? = some (past x ((n : ℚ) - D)) := by
  obtain ⟨s', M, e1, hM, hsz, -, hlt, hf⟩ := start_ok hk junk A other hlen hb h256
  rw [hs] at e1; cases e1
  have h0 : 0 < 2 ^ k := Nat.two_pow_pos k
  have hSpos : 0 < M * 2 ^ k := Nat.mul_pos hM h0
  obtain ⟨s0, s1, s2, -, -, a3, -, -, -, a6, -, -⟩ := reach (hf x) hlt fuel b (b / M) (b % M) (Nat.mod_lt _ hM) (by
    rw [Nat.mul_comm]; exact (Nat.div_add_mod b M).symm)
  have hbd : b = b / M * M + b % M := by rw [Nat.mul_comm]; exact (Nat.div_add_mod b M).symm
  have hrlt := Nat.mod_lt b hM
  generalize b / M = c at *
  generalize b % M = r at *
  have hrS : (r + 1) * 2 ^ k ≤ M * 2 ^ k := Nat.mul_le_mul_right _ hrlt
  have hbN : b * 2 ^ k = c * (M * 2 ^ k) + r * 2 ^ k := by rw [hbd]; ring
  have hw := a6.win
  rw [← a6.head] at hw hrS
  have hhead : s2.tab.head = r * 2 ^ k + 2 ^ k := by rw [a6.head, Nat.succ_mul]
  obtain ⟨out, o1, o2, o3⟩ := vd_ok hw hSpos hrS (fun i => d (b * 2 ^ k + i)) fun i _ => .inl (by omega)
  refine ⟨out, ?_, o2, fun i hi n D hn hD h1 h2 h3 => ?_⟩
  · simp only [vdAfter, a3, bind, Except.bind, hw.size, o1]
  · rw [o3 i hi, ← hn]
    congr 1
    rw [hsz] at hD h1 h3
    have hDc : max (min (d n) (((M * 2 ^ k : Nat) : ℚ) - 1)) 0 = D := hD.symm
    rw [lane hw hrS hSpos (d n) i hi (by rw [hDc]; exact h1) ?_, hDc]
    · rw [show ((n : ℚ) - D) = (((n : Int) : ℚ) - D) by push_cast; rfl, past_eq]
      congr 1
      rw [hn, hbN, hhead]
      push_cast
      ring
    · rw [hDc]
      intro g1 g2
      have g3 : (2 ^ k : ℚ) ≤ D := by
        rcases h2 with h | h
        · exact absurd h.symm g1
        · exact h
      have g4 : ((2 ^ k : Int)) < ⌈D⌉ := by
        rw [Int.lt_ceil]
        push_cast
        rcases lt_or_eq_of_le g3 with h | h
        · exact h
        · exfalso
          apply g1
          rw [← h]
          have : ⌈((2 ^ k : Int) : ℚ)⌉ = 2 ^ k := Int.ceil_intCast _
          push_cast at this
          rw [this]; push_cast; rfl
      have eN : ((2 ^ k : Nat) : Int) = 2 ^ k := by push_cast; rfl
      have hr1 : 1 ≤ r := by
        rcases Nat.eq_zero_or_pos r with h | h
        · subst h
          rw [hhead] at g2
          push_cast at g2
          omega
        · exact h
      have hc1 : 1 ≤ c := by
        rcases Nat.eq_zero_or_pos c with h | h
        · exfalso
          subst h
          rcases h3 with h3 | h3
          · rw [a6.head, Nat.succ_mul] at hrS; omega
          · apply h3
            have e : ⌈D⌉ = (n : Int) + 1 := by rw [g2, hhead, hn, hbN]; push_cast; ring
            have l1 := Int.le_ceil D
            have l2 := Int.ceil_lt_add_one D
            rw [e] at l1 l2 g1
            push_cast at l1 l2 g1
            have : D < (n : ℚ) + 1 := lt_of_le_of_ne l1 (Ne.symm g1)
            constructor <;> linarith
        · exact h
      exact a6.mirA hc1 hr1

/-! ### `vd~` before `delwrite~` -/

/-- **`vd~` running before `delwrite~`**, as when its output is fed back (partial): the delay is `D + N`.  No fault except
possibly in the first block (`first_block_out_of_bounds`), and the value is right if `D ≤ S - N + i`, unless the time read is
between the last sample before the start and the first one during the first cycle of the table. -/
theorem vd_before_write_partial {k : Nat} (hk : k ≤ 28) {junk : Nat → ℚ} {A : Alloc ℚ} {other : Nat} {len : ℚ} (hlen : 0 < len)
    (hb : ⌈len⌉ + 2 * 2 ^ k < 2 ^ 30) (h256 : 256 + 2 * 2 ^ k < 2 ^ 30) {s : Writer}
    (hs : Writer.start k junk A other len = .ok s) (x d : Nat → ℚ) (fuel : Nat) (b : Nat)
    (hfirst : b = 0 → ∀ i < 2 ^ k, clamp s.tab.size (d i) ≤ (s.tab.size : ℚ) - 2 ^ k + i) :
    ∃ out, vdBefore k (fuel + 3) x d s b = .ok out ∧ out.length = 2 ^ k ∧ ∀ i < 2 ^ k, ∀ n D,
      n = b * 2 ^ k + i → D = clamp s.tab.size (d n) →
      D ≤ (s.tab.size : ℚ) - 2 ^ k + i →
      (s.tab.size + 2 ^ k ≤ b * 2 ^ k ∨ ¬ (-1 < (n : ℚ) - (2 ^ k + D) ∧ (n : ℚ) - (2 ^ k + D) < 0)) →
      out[i]? = some (past x ((n : ℚ) - (2 ^ k + D))) := by
  obtain ⟨s', M, e1, hM, hsz, -, hlt, hf⟩ := start_ok hk junk A other hlen hb h256
  rw [hs] at e1; cases e1
  have h0 : 0 < 2 ^ k := Nat.two_pow_pos k
  have eN : ((2 ^ k : Nat) : Int) = 2 ^ k := by push_cast; rfl
  have hSpos : 0 < M * 2 ^ k := Nat.mul_pos hM h0
  obtain ⟨s0, s1, s2, a1, a2, -, -, -, a5, -, a7, a8⟩ := reach (hf x) hlt fuel b (b / M) (b % M) (Nat.mod_lt _ hM) (by
    rw [Nat.mul_comm]; exact (Nat.div_add_mod b M).symm)
  -- the part of the table that has been written, and the mirrored sample
  obtain ⟨c, hE, hhS, hh, hmir⟩ : ∃ c, b * 2 ^ k = c * (M * 2 ^ k) + s1.tab.head ∧ s1.tab.head ≤ M * 2 ^ k ∧
      (b ≠ 0 → 2 ^ k ≤ s1.tab.head) ∧
      (1 ≤ c → s1.tab.buf[M * 2 ^ k]? = some (x (c * (M * 2 ^ k)))) := by
    rcases Nat.eq_zero_or_pos b with h | h
    · subst h
      obtain ⟨-, rfl⟩ := a7 rfl
      have := (hf x).head
      exact ⟨0, by omega, by omega, by omega, by omega⟩
    · have hbd : b - 1 = (b - 1) / M * M + (b - 1) % M := by rw [Nat.mul_comm]; exact (Nat.div_add_mod _ M).symm
      have hr := Nat.mod_lt (b - 1) hM
      generalize (b - 1) / M = c at *
      generalize (b - 1) % M = r at *
      obtain ⟨h1, h2, -⟩ := a8 c r hr (by omega)
      have hrS : (r + 1) * 2 ^ k ≤ M * 2 ^ k := Nat.mul_le_mul_right _ hr
      refine ⟨c, ?_, by omega, fun _ => by rw [h1, Nat.succ_mul]; omega, h2⟩
      rw [h1, show b = c * M + r + 1 by omega]
      ring
  have hw : Win k (M * 2 ^ k) (c * (M * 2 ^ k) + s1.tab.head) x s1.tab := by
    rw [← hE]
    have := a5.win
    rwa [show b / M * (M * 2 ^ k) + b % M * 2 ^ k = (M * (b / M) + b % M) * 2 ^ k by ring, Nat.div_add_mod] at this
  obtain ⟨out, o1, o2, o3⟩ := vd_ok hw hSpos hhS (fun i => d (b * 2 ^ k + i)) fun i hi => by
    by_cases hb0 : b = 0
    · right
      subst hb0
      have := hfirst rfl i hi
      rw [hsz] at this
      simpa [clamp] using this
    · exact .inl (hh hb0)
  refine ⟨out, ?_, o2, fun i hi n D hn hD h1 h3 => ?_⟩
  · simp only [vdBefore, a1, a2, bind, Except.bind, hw.size, o1]
  · rw [o3 i hi, ← hn]
    congr 1
    rw [hsz] at hD h1 h3
    have hDc : max (min (d n) (((M * 2 ^ k : Nat) : ℚ) - 1)) 0 = D := hD.symm
    rw [lane hw hhS hSpos (d n) i hi (by rw [hDc]; exact h1) ?_, hDc]
    · rw [show (n : ℚ) - (2 ^ k + D) = ((((n : Int) - 2 ^ k : Int)) : ℚ) - D by push_cast; ring, past_eq]
      congr 1
      rw [hn, hE]
      push_cast
      ring
    · rw [hDc]
      intro g1 g2
      have hc1 : 1 ≤ c := by
        rcases Nat.eq_zero_or_pos c with h | h
        · exfalso
          subst h
          rcases h3 with h3 | h3
          · omega
          · apply h3
            have e : ⌈D⌉ = (n : Int) - 2 ^ k + 1 := by rw [g2, hn, hE]; push_cast; ring
            have l1 := Int.le_ceil D
            have l2 := Int.ceil_lt_add_one D
            rw [e] at l1 l2 g1
            push_cast at l1 l2 g1
            have : D < (n : ℚ) - 2 ^ k + 1 := lt_of_le_of_ne l1 (Ne.symm g1)
            constructor <;> linarith
        · exact h
      exact hmir hc1

/-! ### findings -/

/-- **F74** (interpolation at the start of the table).  A `vd~` running after `delwrite~`, in the first block of a cycle of the table
(from the third cycle on), with a delay `D` that is not whole and less than `N`, `i < D < i + 1`: the lane interpolates between the last
sample of the previous cycle and the sample `S` too old, because the table's start is mirrored only one block later. -/
theorem interpolation_at_wrap {k : Nat} (hk : k ≤ 28) {junk : Nat → ℚ} {A : Alloc ℚ} {other : Nat} {len : ℚ} (hlen : 0 < len)
    (hb : ⌈len⌉ + 2 * 2 ^ k < 2 ^ 30) (h256 : 256 + 2 * 2 ^ k < 2 ^ 30) {s : Writer}
    (hs : Writer.start k junk A other len = .ok s) (x d : Nat → ℚ) (fuel : Nat) {b c : Nat} (hc : 2 ≤ c)
    (hbc : b * 2 ^ k = c * s.tab.size) (h2 : 2 * 2 ^ k ≤ s.tab.size) :
    ∃ out, vdAfter k (fuel + 3) x d s b = .ok out ∧ ∀ i < 2 ^ k, ∀ D, D = d (b * 2 ^ k + i) → (i : ℚ) < D → D < i + 1 →
      out[i]? = some (x (c * s.tab.size - 1) + (x ((c - 1) * s.tab.size) - x (c * s.tab.size - 1)) * (i + 1 - D)) := by
  obtain ⟨s', M, e1, hM, hsz, -, hlt, hf⟩ := start_ok hk junk A other hlen hb h256
  rw [hs] at e1; cases e1
  have h0 : 0 < 2 ^ k := Nat.two_pow_pos k
  have eN : ((2 ^ k : Nat) : Int) = 2 ^ k := by push_cast; rfl
  have hSpos : 0 < M * 2 ^ k := Nat.mul_pos hM h0
  rw [hsz] at hbc h2 ⊢
  have hbM : b = c * M + 0 := by
    have : b * 2 ^ k = c * M * 2 ^ k := by rw [hbc]; ring
    exact Nat.eq_of_mul_eq_mul_right h0 this
  obtain ⟨s0, s1, s2, -, -, a3, -, -, -, a6, -, -⟩ := reach (hf x) hlt fuel b c 0 hM hbM
  have hw := a6.win
  have hhead : s2.tab.head = 2 ^ k := by rw [a6.head]; ring
  rw [← a6.head] at hw
  obtain ⟨out, o1, o2, o3⟩ := vd_ok hw hSpos (by omega) (fun i => d (b * 2 ^ k + i)) fun i _ => .inl (by omega)
  refine ⟨out, by simp only [vdAfter, a3, bind, Except.bind, hw.size, o1], fun i hi D hD d1 d2 => ?_⟩
  rw [o3 i hi, ← hD]
  congr 1
  have hcl : max (min D (((M * 2 ^ k : Nat) : ℚ) - 1)) 0 = D := by
    have q1 : (i : ℚ) + 1 ≤ 2 ^ k := by exact_mod_cast hi
    have q2 : (2 : ℚ) * 2 ^ k ≤ ((M * 2 ^ k : Nat) : ℚ) := by exact_mod_cast h2
    have q3 : (1 : ℚ) ≤ 2 ^ k := by exact_mod_cast h0
    have q4 : (0 : ℚ) ≤ i := by exact_mod_cast Nat.zero_le i
    rw [min_eq_left (by linarith), max_eq_left (by linarith)]
  have hceil : ⌈D⌉ = (i : Int) + 1 := by
    rw [Int.ceil_eq_iff]; push_cast; constructor <;> linarith
  have hidx : vdIdx (M * 2 ^ k) (vdPos k (M * 2 ^ k) s2.tab.head D i) = ((M * 2 ^ k : Nat) : Int) - 1 := by
    unfold vdIdx
    rw [vdPos_floor, hcl, hceil, hhead]
    push_cast
    rw [if_pos (by omega)]
    ring
  unfold look
  rw [vdPos_frac, hidx, hcl, hceil]
  have hcS : (c - 1) * (M * 2 ^ k) + M * 2 ^ k = c * (M * 2 ^ k) := by
    rw [Nat.sub_mul, Nat.one_mul]
    have := Nat.le_mul_of_pos_left (M * 2 ^ k) (show 0 < c by omega)
    omega
  have v1 := hw.cur (c * (M * 2 ^ k) - 1) (by omega) (by omega)
  rw [show c * (M * 2 ^ k) - 1 = (c - 1) * (M * 2 ^ k) + (M * 2 ^ k - 1) by omega, mod_of _ _ _ (by omega)] at v1
  have v2 := a6.mirB hc rfl
  rw [show (((M * 2 ^ k : Nat) : Int) - 1).toNat = M * 2 ^ k - 1 by omega,
    show (((M * 2 ^ k : Nat) : Int) - 1 + 1).toNat = M * 2 ^ k by omega, v1, v2]
  rw [show c * (M * 2 ^ k) - 1 = (c - 1) * (M * 2 ^ k) + (M * 2 ^ k - 1) by omega]
  simp only [Option.getD_some]
  push_cast
  rfl

/-- **F75** (delays near the length of the line).  A `vd~` running after `delwrite~`: a lane `i` whose delay is a whole number
`D` with `S - N + i < D < S` does not read sample `n - D` but sample `n - D + S`, which comes after `n`. -/
theorem too_long_reads_ahead {k : Nat} (hk : k ≤ 28) {junk : Nat → ℚ} {A : Alloc ℚ} {other : Nat} {len : ℚ} (hlen : 0 < len)
    (hb : ⌈len⌉ + 2 * 2 ^ k < 2 ^ 30) (h256 : 256 + 2 * 2 ^ k < 2 ^ 30) {s : Writer}
    (hs : Writer.start k junk A other len = .ok s) (x d : Nat → ℚ) (fuel : Nat) (b : Nat) :
    ∃ out, vdAfter k (fuel + 3) x d s b = .ok out ∧ ∀ i < 2 ^ k, ∀ D : Nat, d (b * 2 ^ k + i) = D → D < s.tab.size →
      s.tab.size + i < D + 2 ^ k → out[i]? = some (x (b * 2 ^ k + i + (s.tab.size - D))) := by
  obtain ⟨s', M, e1, hM, hsz, -, hlt, hf⟩ := start_ok hk junk A other hlen hb h256
  rw [hs] at e1; cases e1
  have h0 : 0 < 2 ^ k := Nat.two_pow_pos k
  have eN : ((2 ^ k : Nat) : Int) = 2 ^ k := by push_cast; rfl
  have hSpos : 0 < M * 2 ^ k := Nat.mul_pos hM h0
  obtain ⟨s0, s1, s2, -, -, a3, -, -, -, a6, -, -⟩ := reach (hf x) hlt fuel b (b / M) (b % M) (Nat.mod_lt _ hM) (by
    rw [Nat.mul_comm]; exact (Nat.div_add_mod b M).symm)
  have hbd : b = b / M * M + b % M := by rw [Nat.mul_comm]; exact (Nat.div_add_mod b M).symm
  have hrlt := Nat.mod_lt b hM
  generalize b / M = c at *
  generalize b % M = r at *
  have hrS : (r + 1) * 2 ^ k ≤ M * 2 ^ k := Nat.mul_le_mul_right _ hrlt
  have hbN : b * 2 ^ k = c * (M * 2 ^ k) + r * 2 ^ k := by rw [hbd]; ring
  have hw := a6.win
  rw [← a6.head] at hw hrS
  have hhead : s2.tab.head = r * 2 ^ k + 2 ^ k := by rw [a6.head, Nat.succ_mul]
  obtain ⟨out, o1, o2, o3⟩ := vd_ok hw hSpos hrS (fun i => d (b * 2 ^ k + i)) fun i _ => .inl (by omega)
  refine ⟨out, by simp only [vdAfter, a3, bind, Except.bind, hw.size, o1], fun i hi D hD d1 d2 => ?_⟩
  rw [hsz] at d1 d2 ⊢
  rw [o3 i hi, hD]
  congr 1
  have hcl : max (min (D : ℚ) (((M * 2 ^ k : Nat) : ℚ) - 1)) 0 = D := by
    have q1 : (D : ℚ) + 1 ≤ ((M * 2 ^ k : Nat) : ℚ) := by exact_mod_cast d1
    have q4 : (0 : ℚ) ≤ D := by exact_mod_cast Nat.zero_le D
    rw [min_eq_left (by linarith), max_eq_left q4]
  have hceil : ⌈(D : ℚ)⌉ = (D : Int) := by
    rw [← Int.cast_natCast, Int.ceil_intCast]
  have hidx : vdIdx (M * 2 ^ k) (vdPos k (M * 2 ^ k) s2.tab.head D i) = (r * 2 ^ k + i + (M * 2 ^ k - D) : Nat) := by
    unfold vdIdx
    rw [vdPos_floor, hcl, hceil, hhead]
    rw [if_pos (by rw [hhead] at hrS; omega)]
    push_cast [Nat.cast_sub (le_of_lt d1)]
    ring
  unfold look
  rw [vdPos_frac, hidx, hcl, hceil]
  have v1 := hw.cur (b * 2 ^ k + i + (M * 2 ^ k - D)) (by omega) (by omega)
  rw [show b * 2 ^ k + i + (M * 2 ^ k - D) = c * (M * 2 ^ k) + (r * 2 ^ k + i + (M * 2 ^ k - D)) by omega, mod_of _ _ _ (by omega)] at v1
  rw [Int.toNat_natCast, v1]
  push_cast
  simp only [Option.getD_some, sub_self, mul_zero, add_zero]
  congr 1
  omega

/-- **F78** (out of bounds).  A `vd~` running before `delwrite~` with a delay longer than `S - N` in lane 0 indexes before the start of the
table in the first block: the assertion in `__hv_tabread_if` fails. -/
theorem first_block_out_of_bounds {k : Nat} (hk : k ≤ 28) {junk : Nat → ℚ} {A : Alloc ℚ} {other : Nat} {len : ℚ} (hlen : 0 < len)
    (hb : ⌈len⌉ + 2 * 2 ^ k < 2 ^ 30) (h256 : 256 + 2 * 2 ^ k < 2 ^ 30) {s : Writer}
    (hs : Writer.start k junk A other len = .ok s) (x d : Nat → ℚ) (fuel : Nat)
    (hd : (s.tab.size : ℚ) - 2 ^ k < clamp s.tab.size (d 0)) :
    vdBefore k (fuel + 3) x d s 0 = .error .assertFail := by
  obtain ⟨s', M, e1, hM, hsz, -, hlt, hf⟩ := start_ok hk junk A other hlen hb h256
  rw [hs] at e1; cases e1
  have h0 : 0 < 2 ^ k := Nat.two_pow_pos k
  obtain ⟨N, hN⟩ : ∃ N, 2 ^ k = N + 1 := ⟨2 ^ k - 1, by omega⟩
  have hm := ((hf x).messages hM fuel).1
  simp only [vdBefore, Writer.after, hm, bind, Except.bind, vd, sTabreadIf, deref, List.getElem?_cons_zero]
  rw [hN, List.range_succ_eq_map, List.map_cons, List.mapM_cons]
  have hneg : vdIdx s.tab.size (vdPos k s.tab.size s.tab.head (d (0 * (N + 1) + 0)) 0) < 0 := by
    unfold vdIdx
    simp only [Nat.zero_mul, Nat.add_zero]
    rw [vdPos_floor, (hf x).head]
    have : (s.tab.size : Int) - 2 ^ k < ⌈max (min (d 0) ((s.tab.size : ℚ) - 1)) 0⌉ := by
      rw [Int.lt_ceil]; push_cast; exact hd
    have hc := (clamp_ceil s.tab.size (d 0) (by rw [hsz]; exact Nat.mul_pos hM h0)).1
    have e2 : ((2 ^ k : Nat) : Int) = 2 ^ k := by push_cast; rfl
    have e3 : (0 : Int) < 2 ^ k := by rw [← e2]; exact_mod_cast h0
    generalize (2 : Int) ^ k = K at *
    rw [if_pos (by push_cast; omega)]
    push_cast
    omega
  simp only [Nat.zero_mul, Nat.add_zero] at hneg
  simp only [Verif.Msg.assert, bind, Except.bind]
  rw [if_neg (by simp; omega)]

/-- **F79** (`delwrite~ name 0`).  With length 0 every firing of the loop schedules the next one at the same time, so the messages
of the first block never end. -/
theorem zero_length_hangs {k : Nat} (s : Writer) (q : List (Nat × WEv)) (hp : s.period = 0)
    (hq' : ∀ p ∈ q, 0 < p.1) :
    ∃ s' q', Writer.fire k { s with q := q } 0 .wrap = .ok s' ∧ s'.period = 0 ∧ s'.q = (0, .wrap) :: q' ∧ ∀ p ∈ q', 0 < p.1 := by
  have h0 : 0 < 2 ^ k := Nat.two_pow_pos k
  have h1 : ∀ p ∈ push q (0 + 2 ^ k) .mirror, 0 < p.1 := by
    intro p hp
    unfold push at hp
    rcases List.mem_append.1 hp with h | h
    · exact hq' p (List.takeWhile_subset _ h)
    · rcases List.mem_cons.1 h with h | h
      · rw [h]; simp
      · exact hq' p ((List.dropWhile_sublist _).subset h)
  have h2 : ∀ l : List (Nat × WEv), (∀ p ∈ l, 0 < p.1) → push l (0 + 0) .wrap = (0, .wrap) :: l := by
    intro l hl
    unfold push
    cases l with
    | nil => rfl
    | cons p l =>
      have := hl p (by simp)
      simp [show p.1 ≠ 0 by omega]
  refine ⟨{ s with w := { s.w with head := 0 }, q := (0, .wrap) :: push q (0 + 2 ^ k) .mirror }, push q (0 + 2 ^ k) .mirror, ?_, hp, rfl, h1⟩
  unfold Writer.fire
  simp only [sTabwriteMsg, bind, Except.bind, hp, h2 _ h1]

theorem zero_length_start (k : Nat) (hk : k ≤ 20) (junk : Nat → ℚ) (A : Alloc ℚ) (other : Nat) :
    ∃ s, Writer.start k junk A other 0 = .ok s ∧ s.period = 0 ∧ s.q = [(0, .wrap)] ∧
      ∀ fuel, Writer.messages k fuel 0 s = .error .ub := by
  have h0 : 0 < 2 ^ k := Nat.two_pow_pos k
  have hkk : 2 ^ k ≤ 2 ^ 20 := Nat.pow_le_pow_right (by decide) hk
  obtain ⟨T, i1, i2, i3, i4, i5⟩ := init_spec (k := k) (by omega) junk (n := 256) (by omega)
  obtain ⟨T', r1, r2, -⟩ := resize_spec (k := k) (by omega) A i2.toOk (n := 0) (by omega)
  have hu : up k 0 = 0 := by
    rw [up_eq k 0 (by omega) (by omega), Nat.div_eq_of_lt (by omega)]; simp
  rw [hu] at r2
  refine ⟨{ tab := T', w := { table := some 0, head := 0 }, period := 0, q := [(0, .wrap)] }, ?_, rfl, rfl, ?_⟩
  · simp only [Writer.start, onResizeMessage, i1, bind, Except.bind, Flt.geZero, le_refl, decide_true, if_true]
    rw [show (0 : ℚ).ceil = 0 from rfl]
    simp [r1, r2]
  · intro fuel
    have key : ∀ fuel (s : Writer) q, s.period = 0 → s.q = (0, .wrap) :: q → (∀ p ∈ q, 0 < p.1) →
        Writer.dispatch k fuel ((0 + 1) * 2 ^ k) s = .error .ub := by
      intro fuel
      induction fuel with
      | zero => intros; rfl
      | succ n ih =>
        intro s q a1 a2 a3
        obtain ⟨s', q', g1, g2, g3, g4⟩ := zero_length_hangs (k := k) s q a1 a3
        rw [dispatch_step k n _ _ _ _ s s' a2 (by omega) g1]
        exact ih s' q' g2 g3 g4
    exact key fuel _ [] rfl rfl (by simp)

/-! ## C65: `delread~` -/

/-- the lanes of `__var_k~f -1 -1 true`, in every build, as used in `vdPos` -/
theorem lanes_before_head (b : Snapshot.Build) (i : Fin b.lanes) :
    Snapshot.varKProcess b (-1 : ℚ) (-1) true i = (i.val : ℚ) - b.lanes := by
  rw [Snapshot.var_k_lanes]
  cases b
  case none => simp [Snapshot.Build.lanes]
  all_goals
    have hi := i.isLt
    simp only [Snapshot.Build.lanes] at hi
    simp only [if_true, Snapshot.Build.lanes]
    rw [Nat.cast_sub (by omega)]
    push_cast
    ring

/-- **`delread~`** (partial).  `delread~` with the delay `d0` of its argument, then any messages `ms b` in block `b`, in order of
time: no fault, and in block `b` the output is the input delayed by `D b` samples, silence before the start, where `D b` is the last
delay given, at least `N`, rounded to a multiple of `N`.  Delays are at most `S`, and at most `S - N` if `delread~` runs after
`delwrite~`.  Missing: the rounding is to the next multiple of `N` only up to one sample, see `rounding_depends_on_phase`. -/
theorem delread_delays_partial {k : Nat} (hk : k ≤ 28) {junk : Nat → ℚ} {A : Alloc ℚ} {other other' : Nat} {len : ℚ} (hlen : 0 < len)
    (hb : ⌈len⌉ + 2 * 2 ^ k < 2 ^ 30) (h256 : 256 + 2 * 2 ^ k < 2 ^ 30) {s : Writer}
    (hs : Writer.start k junk A other len = .ok s) (x : Nat → ℚ) (fuel : Nat) (late : Bool) (d0 : ℚ)
    (ms : Nat → List (Nat × ℚ)) (hsort : ∀ b, (ms b).Pairwise fun a b => a.1 ≤ b.1)
    (htime : ∀ b, ∀ m ∈ ms b, b * 2 ^ k ≤ m.1 ∧ m.1 < (b + 1) * 2 ^ k)
    (hd0 : max d0 (2 ^ k) + (if late then 2 ^ k else 0) ≤ (s.tab.size : ℚ))
    (hd : ∀ b, ∀ m ∈ ms b, max m.2 (2 ^ k) + (if late then 2 ^ k else 0) ≤ (s.tab.size : ℚ)) :
    ∃ D : Nat → Nat,
      (∀ b, ∃ out, delread k (fuel + 3) other' late x ms (s, Reader.start s.tab d0) b = .ok out ∧ out.length = 2 ^ k ∧
        ∀ i < 2 ^ k, out[i]? = some (if D b ≤ b * 2 ^ k + i then x (b * 2 ^ k + i - D b) else 0)) ∧
      (ms 0 = [] → Rounds (2 ^ k) d0 (D 0)) ∧
      (∀ b, ms (b + 1) = [] → D (b + 1) = D b) ∧
      ∀ b m, (ms b).getLast? = some m → Rounds (2 ^ k) m.2 (D b) := by
  obtain ⟨s', M, e1, hM, hsz, -, hlt, hf⟩ := start_ok hk junk A other hlen hb h256
  rw [hs] at e1; cases e1
  have h0 : 0 < 2 ^ k := Nat.two_pow_pos k
  have eQ : (((2 ^ k : Nat)) : ℚ) = 2 ^ k := by push_cast; rfl
  have hN0 : (0 : ℚ) < 2 ^ k := by rw [← eQ]; exact_mod_cast h0
  rw [hsz] at hd0 hd
  have hSm : (M * 2 ^ k) % 2 ^ k = 0 := Nat.mul_mod_left _ _
  have hSN : 2 ^ k ≤ M * 2 ^ k := Nat.le_mul_of_pos_left _ hM
  have hin : ∀ d : ℚ, max d (2 ^ k) + (if late then 2 ^ k else 0) ≤ ((M * 2 ^ k : Nat) : ℚ) → max d (2 ^ k) ≤ ((M * 2 ^ k : Nat) : ℚ) := by
    intro d h
    have : (0 : ℚ) ≤ if late then 2 ^ k else 0 := by split <;> linarith
    linarith
  -- the largest delay
  have hmax : ∀ (d : ℚ) (D : Nat), max d (2 ^ k) + (if late then 2 ^ k else 0) ≤ ((M * 2 ^ k : Nat) : ℚ) → Rounds (2 ^ k) d D →
      D + (if late then 2 ^ k else 0) ≤ M * 2 ^ k := by
    intro d D h hr
    have h1 := hr.high
    rw [eQ] at h1
    cases late
    · simp only [Bool.false_eq_true, if_false, add_zero] at h ⊢
      by_contra hc
      have h2 := mult_lt h0 hSm hr.mult (by omega)
      have h3 : ((M * 2 ^ k : Nat) : ℚ) + 2 ^ k ≤ D := by rw [← eQ]; exact_mod_cast h2
      linarith
    · simp only [if_true] at h ⊢
      have h2 : (D : ℚ) < ((M * 2 ^ k : Nat) : ℚ) := by linarith
      exact mult_lt h0 hr.mult hSm (by exact_mod_cast h2)
  have hge : ∀ (d : ℚ) (D : Nat), Rounds (2 ^ k) d D → 2 ^ k ≤ D := fun d D h => h.ge
  -- the state of block `b` when its messages are done
  let At := fun (b D : Nat) => ∃ w r w1 r1, after k (fuel + 3) other' late x ms (s, Reader.start s.tab d0) b = .ok (w, r) ∧
    Writer.after k (fuel + 3) x s b = .ok w ∧ Writer.messages k (fuel + 3) b w = .ok w1 ∧
    Reader.dispatch k other' w1.tab (fuel + 3 + 2 * (ms b).length) ((b + 1) * 2 ^ k) (r.receive (ms b)) = .ok r1 ∧
    RD k (M * 2 ^ k) b D [] r1 ∧ r1.rd.head < M * 2 ^ k ∧ 2 ^ k ≤ D ∧ D + (if late then 2 ^ k else 0) ≤ M * 2 ^ k
  -- a block
  have hblock : ∀ b D, At b D → ∃ w2 r2 out,
      after k (fuel + 3) other' late x ms (s, Reader.start s.tab d0) (b + 1) = .ok (w2, r2) ∧
      Writer.after k (fuel + 3) x s (b + 1) = .ok w2 ∧
      delread k (fuel + 3) other' late x ms (s, Reader.start s.tab d0) b = .ok out ∧ out.length = 2 ^ k ∧
      (∀ i < 2 ^ k, out[i]? = some (if D ≤ b * 2 ^ k + i then x (b * 2 ^ k + i - D) else 0)) ∧
      RD k (M * 2 ^ k) (b + 1) D [] r2 := by
    rintro b D ⟨w, r, w1, r1, a1, a2, a3, a4, a5, a6, a7, a8⟩
    obtain ⟨t0, t1, t2, c1, c2, c3, c4, c5, c6, c7⟩ := table_at (hf x) hM hlt fuel b
    rw [a2] at c1; cases c1
    rw [a3] at c2; cases c2
    have hhead : r1.rd.head + 2 ^ k ≤ M * 2 ^ k := mult_lt h0 a5.mult hSm a6
    have hrd : ∃ out, sTabreadF k [if late then t2.tab else w1.tab] r1.rd = .ok ({ r1.rd with head := r1.rd.head + 2 ^ k }, out) ∧
        out.length = 2 ^ k ∧ ∀ i < 2 ^ k, out[i]? = some (if D ≤ b * 2 ^ k + i then x (b * 2 ^ k + i - D) else 0) := by
      cases late
      · simp only [Bool.false_eq_true, if_false, Nat.add_zero] at a8 ⊢
        exact read_block c6 r1.rd a5.table hhead hlt a5.pos a8 (by omega) (by omega)
      · simp only [if_true] at a8 ⊢
        refine read_block c7 r1.rd a5.table hhead hlt a5.pos (by omega) ?_ ?_ <;> rw [Nat.succ_mul] <;> omega
    obtain ⟨out, o1, o2, o3⟩ := hrd
    have hbl : block k (fuel + 3) other' late x (ms b) b (w, r) =
        .ok ((t2, { r1 with rd := { r1.rd with head := r1.rd.head + 2 ^ k } }), out) := by
      simp only [block, a3, a4, c4, bind, Except.bind, o1]
    refine ⟨t2, { r1 with rd := { r1.rd with head := r1.rd.head + 2 ^ k } }, out, ?_, c3, ?_, o2, o3, ?_⟩
    · simp only [after, a1, bind, Except.bind, hbl]
    · simp only [delread, a1, bind, Except.bind, hbl]
    · obtain ⟨t, ht, e, htim⟩ := a5.timer
      refine ⟨a5.table, a5.aligned, by simp [a5.mult], hhead, ?_, a5.sorted, a5.sets, t, ht, e, ?_⟩
      · have := a5.pos
        simp only
        rw [Nat.succ_mul]
        rwa [show ((b * 2 ^ k + 2 ^ k : Nat) : Int) - D - ((r1.rd.head + 2 ^ k : Nat) : Int) =
          ((b * 2 ^ k : Nat) : Int) - D - r1.rd.head by omega]
      · simp only
        rw [htim]
        congr 2
        rw [Nat.succ_mul]
        omega
  -- block 0
  have hzero : ∃ D, At 0 D ∧ (ms 0 = [] → Rounds (2 ^ k) d0 D) ∧ ∀ m, (ms 0).getLast? = some m → Rounds (2 ^ k) m.2 D := by
    obtain ⟨t0, t1, t2, c1, c2, c3, c4, c5, c6, c7⟩ := table_at (hf x) hM hlt fuel 0
    cases c1
    have hr0 : (Reader.start s.tab d0).q.filter (fun p => p.2.isSet) = [((0 : Nat), d0)].map fun m => (m.1, REv.set m.2) := rfl
    obtain ⟨g1, g2, g3, g4⟩ := receive_spec (r := Reader.start s.tab d0) (by simp [Reader.start]) [(0, d0)] hr0 (ms 0)
      (by simp [hsort 0]) _ rfl
    have g4' : ((Reader.start s.tab d0).receive (ms 0)).q.filter (fun p => !p.2.isSet) = [] := by rw [g4]; rfl
    have hall : ((Reader.start s.tab d0).receive (ms 0)).q.filter (fun p => p.2.isSet) = ((Reader.start s.tab d0).receive (ms 0)).q := by
      rw [List.filter_eq_self]
      intro a ha
      by_contra hc
      have : a ∈ ((Reader.start s.tab d0).receive (ms 0)).q.filter (fun p => !p.2.isSet) := List.mem_filter.2 ⟨ha, by simpa using hc⟩
      rw [g4'] at this; cases this
    rw [g3] at hall
    have hq : ((Reader.start s.tab d0).receive (ms 0)).q = (0, .set d0) :: (ms 0).map fun m => (m.1, REv.set m.2) := by
      rw [← hall]; rfl
    rw [hq] at g2 g3
    rw [List.pairwise_cons] at g2
    obtain ⟨r1, D1, f1, f2, f3⟩ := fire_set (other := other') hk hSm hlt c5 (hin d0 hd0)
      (r := { (Reader.start s.tab d0).receive (ms 0) with q := (ms 0).map fun m => (m.1, REv.set m.2) }) (l := ms 0) (t := 0)
      (by simp only [g1]; rfl) (by simp only [g1]; rfl) g2.2
      (by rw [List.filter_eq_self]; intro a ha; obtain ⟨m, -, rfl⟩ := List.mem_map.1 ha; rfl) (by simp) (by simp)
    obtain ⟨r', D', p1, p2, p3, p4, p5⟩ := rdispatch (other := other') hk hSm hlt hSN c5 (fuel + 2 + 2 * (ms 0).length) (ms 0) r1 D1 f2
      (fun m hm => ⟨(htime 0 m hm).1, (htime 0 m hm).2, hin _ (hd 0 m hm)⟩) (by split <;> omega)
    have hstep : Reader.dispatch k other' t1.tab (fuel + 3 + 2 * (ms 0).length) ((0 + 1) * 2 ^ k) ((Reader.start s.tab d0).receive (ms 0)) = .ok r' := by
      rw [show fuel + 3 + 2 * (ms 0).length = fuel + 2 + 2 * (ms 0).length + 1 by omega, rdispatch_step hq (by simp) f1]
      exact p1
    have hrounds : (ms 0 = [] → Rounds (2 ^ k) d0 D') ∧ ∀ m, (ms 0).getLast? = some m → Rounds (2 ^ k) m.2 D' :=
      ⟨fun h => by rw [p4 h]; exact f3, p5⟩
    have hbnd : 2 ^ k ≤ D' ∧ D' + (if late then 2 ^ k else 0) ≤ M * 2 ^ k := by
      cases hl : (ms 0).getLast? with
      | none =>
        have := hrounds.1 (List.getLast?_eq_none_iff.1 hl)
        exact ⟨hge _ _ this, hmax _ _ hd0 this⟩
      | some m =>
        have := p5 m hl
        exact ⟨hge _ _ this, hmax _ _ (hd 0 m (List.mem_of_getLast? hl)) this⟩
    exact ⟨D', ⟨_, _, _, _, rfl, rfl, c2, hstep, p2, p3, hbnd.1, hbnd.2⟩, hrounds⟩
  -- the next block
  have hsucc : ∀ b D, At b D → ∃ D', At (b + 1) D' ∧ (ms (b + 1) = [] → D' = D) ∧
      ∀ m, (ms (b + 1)).getLast? = some m → Rounds (2 ^ k) m.2 D' := by
    intro b D hA
    obtain ⟨w2, r2, out, a1, a2, -, -, -, a5⟩ := hblock b D hA
    obtain ⟨-, -, -, -, -, -, -, -, -, -, hD1, hD2⟩ := hA
    obtain ⟨t0, t1, t2, c1, c2, c3, c4, c5, c6, c7⟩ := table_at (hf x) hM hlt fuel (b + 1)
    rw [a2] at c1; cases c1
    obtain ⟨g1, g2, g3, g4⟩ := receive_spec (r := r2) a5.sorted [] a5.sets (ms (b + 1)) (by simpa using hsort (b + 1)) _ rfl
    have hRD : RD k (M * 2 ^ k) (b + 1) D (ms (b + 1)) (r2.receive (ms (b + 1))) :=
      ⟨by rw [g1]; exact a5.table, by rw [g1]; exact a5.aligned, by rw [g1]; exact a5.mult, by rw [g1]; exact a5.le,
        by rw [g1]; exact a5.pos, g2, g3, by rw [g1, g4]; exact a5.timer⟩
    obtain ⟨r', D', p1, p2, p3, p4, p5⟩ := rdispatch (other := other') hk hSm hlt hSN c5 (fuel + 3 + 2 * (ms (b + 1)).length) _ _ _ hRD
      (fun m hm => ⟨(htime _ m hm).1, (htime _ m hm).2, hin _ (hd _ m hm)⟩) (by split <;> omega)
    have hbnd : 2 ^ k ≤ D' ∧ D' + (if late then 2 ^ k else 0) ≤ M * 2 ^ k := by
      cases hl : (ms (b + 1)).getLast? with
      | none =>
        rw [p4 (List.getLast?_eq_none_iff.1 hl)]
        exact ⟨hD1, hD2⟩
      | some m =>
        have := p5 m hl
        exact ⟨hge _ _ this, hmax _ _ (hd _ m (List.mem_of_getLast? hl)) this⟩
    exact ⟨D', ⟨_, _, _, _, a1, a2, c2, p1, p2, p3, hbnd.1, hbnd.2⟩, p4, p5⟩
  have huniq : ∀ b D D', At b D → At b D' → D = D' := by
    rintro b D D' ⟨w, r, w1, r1, a1, a2, a3, a4, a5, a6, a7, a8⟩ ⟨w', r', w1', r1', b1, b2, b3, b4, b5, b6, b7, b8⟩
    rw [a1] at b1; cases b1
    rw [a3] at b3; cases b3
    rw [a4] at b4; cases b4
    exact delay_unique a5.pos b5.pos (by omega) (by omega) (by omega) (by omega)
  have hall : ∀ b, ∃ D, At b D := by
    intro b
    induction b with
    | zero => obtain ⟨D, h, -⟩ := hzero; exact ⟨D, h⟩
    | succ b ih =>
      obtain ⟨D, h⟩ := ih
      obtain ⟨D', h', -⟩ := hsucc b D h
      exact ⟨D', h'⟩
  choose D hD using hall
  refine ⟨D, fun b => ?_, fun h => ?_, fun b h => ?_, fun b m h => ?_⟩
  · obtain ⟨w2, r2, out, -, -, h1, h2, h3, -⟩ := hblock b _ (hD b)
    exact ⟨out, h1, h2, h3⟩
  · obtain ⟨D', h1, h2, -⟩ := hzero
    rw [huniq 0 _ _ (hD 0) h1]; exact h2 h
  · obtain ⟨D', h1, h2, -⟩ := hsucc b _ (hD b)
    rw [huniq _ _ _ (hD (b + 1)) h1]; exact h2 h
  · cases b with
    | zero =>
      obtain ⟨D', h1, -, h2⟩ := hzero
      rw [huniq 0 _ _ (hD 0) h1]; exact h2 m h
    | succ b =>
      obtain ⟨D', h1, -, h2⟩ := hsucc b _ (hD b)
      rw [huniq _ _ _ (hD (b + 1)) h1]; exact h2 m h

/-- **F76** (`delread~` with the full length).  With a delay of `S` samples, a `delread~` running after `delwrite~` puts out the input
without delay: here the first block, which should be silent. -/
theorem full_length_is_no_delay {k : Nat} (hk : k ≤ 28) {junk : Nat → ℚ} {A : Alloc ℚ} {other other' : Nat} {len : ℚ} (hlen : 0 < len)
    (hb : ⌈len⌉ + 2 * 2 ^ k < 2 ^ 30) (h256 : 256 + 2 * 2 ^ k < 2 ^ 30) {s : Writer}
    (hs : Writer.start k junk A other len = .ok s) (x : Nat → ℚ) (fuel : Nat) :
    ∃ out, delread k (fuel + 3) other' true x (fun _ => []) (s, Reader.start s.tab s.tab.size) 0 = .ok out ∧
      ∀ i < 2 ^ k, out[i]? = some (x i) := by
  obtain ⟨s', M, e1, hM, hsz, -, hlt, hf⟩ := start_ok hk junk A other hlen hb h256
  rw [hs] at e1; cases e1
  have h0 : 0 < 2 ^ k := Nat.two_pow_pos k
  have eQ : (((2 ^ k : Nat)) : ℚ) = 2 ^ k := by push_cast; rfl
  have hSm : (M * 2 ^ k) % 2 ^ k = 0 := Nat.mul_mod_left _ _
  have hSN : 2 ^ k ≤ M * 2 ^ k := Nat.le_mul_of_pos_left _ hM
  have hmx : max ((s.tab.size : Nat) : ℚ) (2 ^ k) = ((M * 2 ^ k : Nat) : ℚ) := by
    rw [hsz, max_eq_left]; rw [← eQ]; exact_mod_cast hSN
  obtain ⟨t0, t1, t2, c1, c2, c3, c4, c5, c6, c7⟩ := table_at (hf x) hM hlt fuel 0
  cases c1
  obtain ⟨r1, D1, f1, f2, f3⟩ := fire_set (other := other') (d := (s.tab.size : ℚ)) hk hSm hlt c5 (le_of_eq hmx)
    (r := { Reader.start s.tab s.tab.size with q := [] }) (l := []) (t := 0) rfl rfl (by simp) rfl (by simp) (by simp)
  obtain ⟨r', D', p1, p2, p3, p4, -⟩ := rdispatch (other := other') hk hSm hlt hSN c5 (fuel + 2) [] r1 D1 f2 (by simp) (by simp only [List.length_nil]; split <;> omega)
  have hstep : Reader.dispatch k other' t1.tab (fuel + 3) ((0 + 1) * 2 ^ k) ((Reader.start s.tab s.tab.size).receive []) = .ok r' := by
    rw [rdispatch_step (r := (Reader.start s.tab s.tab.size).receive []) rfl (by simp) f1]
    exact p1
  rw [p4 rfl] at p2
  have hD : D1 = M * 2 ^ k := by
    have q1 := f3.low
    have q2 := f3.high
    rw [eQ, hmx] at q1 q2
    have g1 : M * 2 ^ k < D1 + 1 := by exact_mod_cast q1
    by_contra hne
    have g2 := mult_lt h0 hSm f3.mult (by omega)
    have g3 : ((M * 2 ^ k : Nat) : ℚ) + 2 ^ k ≤ D1 := by rw [← eQ]; exact_mod_cast g2
    linarith
  have hhead : r'.rd.head + 2 ^ k ≤ M * 2 ^ k := mult_lt h0 p2.mult hSm p3
  have hpos : ((M * 2 ^ k : Nat) : Int) ∣ ((0 * 2 ^ k : Nat) : Int) - (0 : Nat) - r'.rd.head := by
    have := Int.dvd_add p2.pos (Int.dvd_refl ((M * 2 ^ k : Nat) : Int))
    rwa [hD, show ((0 * 2 ^ k : Nat) : Int) - (M * 2 ^ k : Nat) - r'.rd.head + (M * 2 ^ k : Nat) =
      ((0 * 2 ^ k : Nat) : Int) - (0 : Nat) - r'.rd.head by omega] at this
  obtain ⟨out, o1, o2, o3⟩ := read_block c7 r'.rd p2.table hhead hlt hpos (Nat.zero_le _) (by omega) (by omega)
  refine ⟨out, ?_, fun i hi => by simpa using o3 i hi⟩
  simp only [delread, after, block, bind, Except.bind, c2, List.length_nil, Nat.mul_zero, Nat.add_zero, hstep, c4, if_true, o1]

theorem fire_first {k other : Nat} {T : Table ℚ} (t : Nat) (o : STabread) (ho : o.table = some 0) :
    Reader.fire k other T ⟨o, []⟩ t .first =
      .ok ⟨{ o with last := T.size, head := 0, playing := true }, [(t + T.size, .loop)]⟩ := by
  simp only [Reader.fire, sTabreadMsg, ho, deref, List.getElem?_cons_zero, bind, Except.bind, push, List.takeWhile_nil, List.dropWhile_nil,
    List.nil_append]
  rfl

/-- **F77** (`delread~` with more than the length).  A delay longer than the table and the write position together makes the position wrap
around `2^32`; the loop then starts at once and the read head is at 0, so that the delay becomes the current write position. -/
theorem too_long_starts_at_zero {k other b t H S : Nat} (hk : k ≤ 28) {T : Table ℚ} (hT : Seen k S b T) (hH : T.head = H) (hS1 : S < 2 ^ 30)
    (hSN : 2 ^ k ≤ S)
    (d : ℚ) (hd : (2 ^ k : ℚ) ≤ d) (hlow : (S : ℚ) + H + 1 ≤ d) (hhigh : d < 2 ^ 31) (r : Reader) (hq : r.q = [(t, .set d)])
    (htab : r.rd.table = some 0) (hal : r.rd.aligned = true) (ht : b * 2 ^ k ≤ t) (ht' : t < (b + 1) * 2 ^ k) (fuel : Nat) :
    ∃ r', Reader.dispatch k other T (fuel + 3) ((b + 1) * 2 ^ k) r = .ok r' ∧ r'.rd.head = 0 := by
  have h0 : 0 < 2 ^ k := Nat.two_pow_pos k
  have hkk : 2 ^ k ≤ 2 ^ 28 := Nat.pow_le_pow_right (by decide) hk
  have hmax : max d (2 ^ k) = d := max_eq_left hd
  have hneg : (H : ℚ) - d < 0 := by
    have : (0 : ℚ) ≤ S := by exact_mod_cast Nat.zero_le S
    linarith
  obtain ⟨a, ha⟩ : ∃ a : Nat, (d - H).floor = (a : Int) := by
    have : 0 ≤ (d - H).floor := by
      rw [show (0 : Int) = ((0 : Rat)).floor from rfl]
      exact Rat.floor_monotone (by linarith)
    exact ⟨_, (Int.toNat_of_nonneg this).symm⟩
  have hfl : ⌊d - (H : ℚ)⌋ = (a : Int) := ha
  have a1 : (a : ℚ) ≤ d - H := by
    have := Int.floor_le (d - (H : ℚ)); rw [hfl] at this; exact_mod_cast this
  have haS : S + 1 ≤ a := by
    have : ((S : Int) + 1) ≤ (a : Int) := by
      rw [← hfl, Int.le_floor]; push_cast; linarith
    omega
  have haU : a < 2 ^ 31 := by
    have hH0 : (0 : ℚ) ≤ H := by exact_mod_cast Nat.zero_le H
    have : (a : ℚ) < 2 ^ 31 := by linarith
    exact_mod_cast this
  have e1 : Flt.ltZero (.fin ((H : ℚ) - d)) = true := by simp [Flt.ltZero]; linarith
  have e2 : Flt.abs (.fin ((H : ℚ) - d)) = .fin (d - H) := by simp only [Flt.abs]; rw [if_pos hneg]; congr 1; ring
  have e3 : Flt.toU32 other (.fin (d - H)) = a := by
    simp only [Flt.toU32]
    rw [ha, if_pos ⟨by linarith, by omega⟩]
    rfl
  obtain ⟨l1, l2, l3⟩ := alignDown_spec k (S + 2 ^ 32 - a) (by omega) (by omega)
  have hset : Reader.fire k other T { r with q := [] } t (.set d) =
      .ok ⟨{ r.rd with last := S, head := alignDown k (S + 2 ^ 32 - a), playing := true }, [(t, .first)]⟩ := by
    have hdel : (max 0 (-((alignDown k (S + 2 ^ 32 - a) : Int) - (S : Int)))).toNat = 0 := by omega
    have hmod : (S + 2 ^ 32 - a) % 2 ^ 32 = S + 2 ^ 32 - a := Nat.mod_eq_of_lt (by omega)
    have hmsg : sTabreadMsg k other [T] r.rd 0 (.float (.fin ((T.head : ℚ) - max d (2 ^ k)))) =
        .ok { r.rd with last := S, head := alignDown k (S + 2 ^ 32 - a), playing := true } := by
      simp only [sTabreadMsg, hmax, hH, htab, deref, List.getElem?_cons_zero, bind, Except.bind, hT.size, hal, e1, e2, e3, if_true, hmod]
      rw [if_neg (by simp)]
    simp only [Reader.fire, bind, Except.bind, hmsg, hT.size, hdel, push, List.filter_nil, List.takeWhile_nil, List.dropWhile_nil,
      List.nil_append, Nat.add_zero]
  generalize alignDown k (S + 2 ^ 32 - a) = u at hset
  have hfirst := fire_first (k := k) (other := other) (T := T) t { r.rd with last := S, head := u, playing := true } htab
  have hnot : ¬ t + T.size < (b + 1) * 2 ^ k := by
    have : (b + 1) * 2 ^ k = b * 2 ^ k + 2 ^ k := Nat.succ_mul _ _
    rw [hT.size]; omega
  refine ⟨⟨{ r.rd with last := T.size, head := 0, playing := true }, [(t + T.size, .loop)]⟩, ?_, rfl⟩
  rw [rdispatch_step (fuel := fuel + 2) hq ht' hset, rdispatch_step (fuel := fuel + 1) (q := []) (t := t) (e := .first) rfl ht' hfirst,
    Reader.dispatch]
  simp only
  rw [if_neg hnot]

/-- **F80** (`delread~` and delays that are not whole).  In the scalar build, with a table of 8 samples, a delay of 2.5 samples becomes 3 samples if it is set
while the write head is at 4 (read head 1) and 2 samples if it is set while it is at 1 (read head 7, that is 1 - 2 + 8). -/
theorem rounding_depends_on_phase (T : Table ℚ) (hT : T.size = 8) (o : STabread) (ho : o.table = some 0) (ha : o.aligned = true) :
    (sTabreadMsg 0 0 [T] o 0 (.float (.fin (4 - 5 / 2)))).map (·.head) = .ok 1 ∧
    (sTabreadMsg 0 0 [T] o 0 (.float (.fin (1 - 5 / 2)))).map (·.head) = .ok 7 := by
  have e1 : Flt.toU32 0 (Flt.abs (.fin (4 - 5 / 2))) = 1 := by decide +kernel
  have e2 : Flt.toU32 0 (Flt.abs (.fin (1 - 5 / 2))) = 1 := by decide +kernel
  have e3 : Flt.ltZero (.fin (4 - 5 / 2)) = false := by decide +kernel
  have e4 : Flt.ltZero (.fin (1 - 5 / 2)) = true := by decide +kernel
  have e5 : alignDown 0 1 = 1 := by decide +kernel
  have e6 : alignDown 0 ((8 + 2 ^ 32 - 1) % 2 ^ 32) = 7 := by decide +kernel
  constructor
  · simp only [sTabreadMsg, ho, deref, List.getElem?_cons_zero, bind, Except.bind, hT, ha, if_true, e1, e3, Except.map]
    simp [e5]
  · simp only [sTabreadMsg, ho, deref, List.getElem?_cons_zero, bind, Except.bind, hT, ha, if_true, e2, e4, Except.map, e6]
    rfl

/-! ## Concrete cases -/

theorem ceil_4410 : ⌈(4410 : ℚ)⌉ = 4410 := by
  have : ((4410 : Int) : ℚ) = 4410 := by norm_num
  rw [← this, Int.ceil_intCast]

/-- `delwrite~ d 100` at 44.1 kHz in an SSE build: 4412 samples -/
example (junk : Nat → ℚ) (A : Alloc ℚ) : ∃ s, Writer.start 2 junk A 0 4410 = .ok s ∧ s.tab.size = 4412 := by
  obtain ⟨s, M, h1, -, -, h2, -⟩ := start_ok (k := 2) (by decide) junk A 0 (len := 4410) (by norm_num) (by rw [ceil_4410]; norm_num) (by norm_num)
  refine ⟨s, h1, ?_⟩
  rw [h2, ceil_4410]
  exact up_eq 2 4410 (by decide) (by norm_num)

/-- its `vd~` with a constant delay of 100.5 samples -/
example {junk : Nat → ℚ} {A : Alloc ℚ} {s : Writer} (hs : Writer.start 2 junk A 0 4410 = .ok s) (hsz : s.tab.size = 4412) (x : Nat → ℚ)
    (b : Nat) (hb : 4412 ≤ b * 2 ^ 2) :
    ∃ out, vdAfter 2 3 x (fun _ => 201 / 2) s b = .ok out ∧
      ∀ i < 2 ^ 2, out[i]? = some (past x (((b * 2 ^ 2 + i : Nat) : ℚ) - 201 / 2)) := by
  obtain ⟨out, h1, -, h2⟩ := vd_after_write_partial (k := 2) (by decide) (by norm_num) (by rw [ceil_4410]; norm_num) (by norm_num) hs x
    (fun _ => 201 / 2) 0 b
  refine ⟨out, h1, fun i hi => ?_⟩
  have hc : clamp s.tab.size (201 / 2) = 201 / 2 := by rw [hsz]; unfold clamp; norm_num
  have hi0 : (0 : ℚ) ≤ i := by exact_mod_cast Nat.zero_le i
  refine h2 i hi _ _ rfl hc.symm ?_ (Or.inr (by norm_num)) (Or.inl (by rw [hsz]; exact hb))
  rw [hsz]; norm_num; linarith

/-- its `delread~` with a delay of 10 samples: 12 samples -/
example {junk : Nat → ℚ} {A : Alloc ℚ} {s : Writer} (hs : Writer.start 2 junk A 0 4410 = .ok s) (hsz : s.tab.size = 4412) (x : Nat → ℚ)
    (b : Nat) :
    ∃ out, delread 2 3 0 true x (fun _ => []) (s, Reader.start s.tab 10) b = .ok out ∧
      ∀ i < 2 ^ 2, out[i]? = some (if 12 ≤ b * 2 ^ 2 + i then x (b * 2 ^ 2 + i - 12) else 0) := by
  obtain ⟨D, h1, h2, h3, -⟩ := delread_delays_partial (k := 2) (other' := 0) (by decide) (by norm_num) (by rw [ceil_4410]; norm_num)
    (by norm_num) hs x 0 true 10 (fun _ => []) (by simp) (by simp) (by rw [hsz]; norm_num) (by simp)
  have hD : ∀ b, D b = 12 := by
    intro b
    induction b with
    | zero =>
      have h := h2 rfl
      have a1 := h.mult
      have a2 := h.low
      have a3 := h.high
      norm_num at a2 a3
      have a2' : 10 < D 0 + 1 := by exact_mod_cast a2
      have a3' : D 0 < 14 := by exact_mod_cast a3
      omega
    | succ b ih => rw [h3 b rfl, ih]
  obtain ⟨out, o1, -, o2⟩ := h1 b
  rw [hD b] at o2
  exact ⟨out, o1, o2⟩

end Verif.DelayLine
