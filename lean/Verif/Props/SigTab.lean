import Verif.Sig.Tabread4
import Verif.Sig.Tabread
import Verif.Sig.Tabosc4
import Verif.Props.SigFun
/-!
# C78: table readers

`[tabread4~]`, `[tabread~]`, `[tabosc4~]`: what is at the outlet, for every table and every signal.  The tables are read by
`__tabread~if`, whose code is that of C49; indices are made by `__cast~fi`, whose code is that of C60.
-/
namespace Verif.Sig
open Verif.Reduce

variable {μ : Type} {W : World ℝ μ} {log : ℕ → List (Sent μ)} {v : ℕ → ℕ → ℕ → ℝ}

/-! ### specification -/

/-- linear interpolation between the entries of a table -/
noncomputable def lerp (T : ℤ → ℝ) (x : ℝ) : ℝ := T ⌊x⌋ + (T (⌊x⌋ + 1) - T ⌊x⌋) * Int.fract x

/-- `x` restricted to 0...hi -/
noncomputable def clip0 (hi x : ℝ) : ℝ := max (min x hi) 0

/-- the object is a `__cast~fi`: an integer made by `R` -/
def IsCast (W : World ℝ μ) (o : ℕ) (R : ℝ → ℤ) : Prop := ∀ sig ms t, W.beh o sig ms 0 t = (R (sig 0 t) : ℝ)
/-- the object is an `__add~i` -/
def IsAddI (W : World ℝ μ) (o : ℕ) : Prop := ∀ sig ms t, W.beh o sig ms 0 t = sig 0 t + sig 1 t
/-- the object is a `__tabread~if` on the table `T`, wherever its index is one of the table (`n` entries) -/
def IsReader (W : World ℝ μ) (o : ℕ) (n : ℕ) (T : ℤ → ℝ) : Prop :=
  ∀ (sig : ℕ → ℕ → ℝ) (ms : ℕ → ℕ → List μ) (t : ℕ) (i : ℤ), sig 0 t = (i : ℝ) → 0 ≤ i → i < n → W.beh o sig ms 0 t = T i

/-- conversions keep whole numbers: both that of SSE and AVX and that of the other builds -/
def Whole (R : ℝ → ℤ) : Prop := ∀ n : ℤ, R n = n
/-- NEON and scalar: towards zero -/
def Cuts (R : ℝ → ℤ) : Prop := ∀ x, 0 ≤ x → R x = ⌊x⌋
/-- SSE and AVX: to the nearest -/
def Rounds (R : ℝ → ℤ) : Prop := ∀ x, |(R x : ℝ) - x| ≤ 1 / 2

theorem Cuts.whole_nonneg {R : ℝ → ℤ} (h : Cuts R) {n : ℤ} (hn : 0 ≤ n) : R n = n := by
  rw [h _ (by exact_mod_cast hn), Int.floor_intCast]

theorem Rounds.whole {R : ℝ → ℤ} (h : Rounds R) : Whole R := by
  intro n
  have := h n
  have h1 : |(R n - n : ℤ)| < 1 := by
    have : |((R n - n : ℤ) : ℝ)| < 1 := by push_cast; linarith
    exact_mod_cast this
  have := Int.abs_lt_one_iff.1 h1
  omega

theorem clip0_nonneg (hi x : ℝ) : 0 ≤ clip0 hi x := le_max_right _ _
theorem clip0_le {hi : ℝ} (h : 0 ≤ hi) (x : ℝ) : clip0 hi x ≤ hi := max_le (min_le_right _ _) h
theorem clip0_self {hi x : ℝ} (h0 : 0 ≤ x) (h1 : x ≤ hi) : clip0 hi x = x := by rw [clip0, min_eq_left h1, max_eq_left h0]
theorem clip0_high {hi x : ℝ} (h0 : 0 ≤ hi) (h1 : hi ≤ x) : clip0 hi x = hi := by rw [clip0, min_eq_right h1, max_eq_left h0]

/-- the interpolation is exact at the entries -/
theorem lerp_int (T : ℤ → ℝ) (i : ℤ) : lerp T i = T i := by simp [lerp]

/-- and lies between the neighbours -/
theorem lerp_between (T : ℤ → ℝ) (x : ℝ) : min (T ⌊x⌋) (T (⌊x⌋ + 1)) ≤ lerp T x ∧ lerp T x ≤ max (T ⌊x⌋) (T (⌊x⌋ + 1)) := by
  have h0 := Int.fract_nonneg x
  have h1 := (Int.fract_lt_one x).le
  unfold lerp
  constructor
  · rcases le_total (T ⌊x⌋) (T (⌊x⌋ + 1)) with h | h
    · rw [min_eq_left h]; nlinarith
    · rw [min_eq_right h]; nlinarith
  · rcases le_total (T ⌊x⌋) (T (⌊x⌋ + 1)) with h | h
    · rw [max_eq_right h]; nlinarith
    · rw [max_eq_left h]; nlinarith

/-- straight lines are reproduced -/
theorem lerp_line (a b x : ℝ) : lerp (fun i => a + b * i) x = a + b * x := by
  have := Int.floor_add_fract x
  unfold lerp
  push_cast
  calc a + b * (⌊x⌋ : ℝ) + (a + b * ((⌊x⌋ : ℝ) + 1) - (a + b * (⌊x⌋ : ℝ))) * Int.fract x = a + b * ((⌊x⌋ : ℝ) + Int.fract x) := by ring
    _ = _ := by rw [this]

theorem other_of {g : Graph ℝ} {o : ℕ} {s : String} (h : Solves W g log v) (ho : o ∈ g.ids) (hk : g.kind o = .other s) (t : ℕ) :
    v o 0 t = W.beh o (fun i t => inSum v (g.ins o i) t) (fun i t => received (log t) (g.ins o i)) 0 t := by
  have hb := h o ho
  simp only [Obeys, hk] at hb
  exact hb 0 t

theorem floor_range {n : ℕ} {c : ℝ} (h0 : 0 ≤ c) (h1 : c ≤ (n : ℝ) - 2) : 0 ≤ ⌊c⌋ ∧ ⌊c⌋ + 1 < n := by
  refine ⟨Int.floor_nonneg.2 h0, ?_⟩
  have h2 : (⌊c⌋ : ℝ) ≤ c := Int.floor_le c
  have : (⌊c⌋ : ℝ) + 1 < n := by linarith
  exact_mod_cast this

/-! ### tabread4~ -/

/-- the objects of `[tabread4~]` on a table of `n` entries -/
structure Tab4 (W : World ℝ μ) (R : ℝ → ℤ) (n : ℕ) (T : ℤ → ℝ) : Prop where
  cast : IsCast W 5 R
  add : IsAddI W 6
  hi : IsReader W 13 n T
  lo : IsReader W 14 n T

/-- the indices at the two readers -/
theorem tabread4_indices {a1 : ℝ} (hW : IsReal W) (h : Solves W (Tabread4.patch a1) log v) {R : ℝ → ℤ} (hR : Whole R)
    (hcast : IsCast W 5 R) (hadd : IsAddI W 6) (t : ℕ) :
    let c := clip0 (heldAt W 0 (log t) 11) (v Tabread4.in0 0 t)
    inSum v ((Tabread4.patch a1).ins 14 0) t = ((⌊c⌋ : ℤ) : ℝ) ∧ inSum v ((Tabread4.patch a1).ins 13 0) t = ((⌊c⌋ + 1 : ℤ) : ℝ) := by
  have h8 : v 8 0 t = clip0 (heldAt W 0 (log t) 11) (v Tabread4.in0 0 t) := by
    rw [Tabread4.n8 h, Tabread4.n10 h, hW.max, hW.min, held_eq]; rfl
  have h19 : v 19 0 t = ((⌊v 8 0 t⌋ : ℤ) : ℝ) := by rw [Tabread4.n19 h, hW.floor]
  have h5 : v 5 0 t = ((⌊v 8 0 t⌋ : ℤ) : ℝ) := by
    rw [other_of h (by simp [Tabread4.patch, ofConns]) rfl, hcast]
    have : inSum v ((Tabread4.patch a1).ins 5 0) t = v 19 0 t := by simp [Tabread4.patch, ofConns, Tabread4.conns, Conn.into, inSum]
    rw [this, h19, hR]
  have h7 : v 7 0 t = 1 := by exact Tabread4.n7 h t
  have h6 : v 6 0 t = ((⌊v 8 0 t⌋ + 1 : ℤ) : ℝ) := by
    rw [other_of h (by simp [Tabread4.patch, ofConns]) rfl, hadd]
    have e0 : inSum v ((Tabread4.patch a1).ins 6 0) t = v 5 0 t := by simp [Tabread4.patch, ofConns, Tabread4.conns, Conn.into, inSum]
    have e1 : inSum v ((Tabread4.patch a1).ins 6 1) t = v 7 0 t := by simp [Tabread4.patch, ofConns, Tabread4.conns, Conn.into, inSum]
    rw [e0, e1, h5, h7]; push_cast; rfl
  have e14 : inSum v ((Tabread4.patch a1).ins 14 0) t = v 5 0 t := by simp [Tabread4.patch, ofConns, Tabread4.conns, Conn.into, inSum]
  have e13 : inSum v ((Tabread4.patch a1).ins 13 0) t = v 6 0 t := by simp [Tabread4.patch, ofConns, Tabread4.conns, Conn.into, inSum]
  intro c
  rw [e14, e13, h5, h6, h8]
  exact ⟨rfl, rfl⟩

/-- the same with what the two readers give at one time -/
theorem tabread4_at {a1 : ℝ} (hW : IsReal W) (h : Solves W (Tabread4.patch a1) log v) {R : ℝ → ℤ} (hR : Whole R) {n : ℕ} (hn : 2 ≤ n)
    {T : ℤ → ℝ} (hcast : IsCast W 5 R) (hadd : IsAddI W 6) (t : ℕ)
    (hrd : ∀ o, o = 13 ∨ o = 14 → ∀ i : ℤ, inSum v ((Tabread4.patch a1).ins o 0) t = i → 0 ≤ i → i < n → v o 0 t = T i)
    (hs : heldAt W 0 (log t) 11 = n - 2) :
    inSum v ((Tabread4.patch a1).ins Tabread4.out0 0) t = lerp T (clip0 (n - 2) (v Tabread4.in0 0 t)) ∧
    0 ≤ ⌊clip0 (n - 2) (v Tabread4.in0 0 t)⌋ ∧ ⌊clip0 (n - 2) (v Tabread4.in0 0 t)⌋ + 1 < n := by
  obtain ⟨i14, i13⟩ := tabread4_indices hW h hR hcast hadd t
  rw [hs] at i14 i13
  have hn' : (0 : ℝ) ≤ n - 2 := by
    have : (2 : ℝ) ≤ n := by exact_mod_cast hn
    linarith
  have h8 : v 8 0 t = clip0 (n - 2) (v Tabread4.in0 0 t) := by
    rw [Tabread4.n8 h, Tabread4.n10 h, hW.max, hW.min, held_eq, hs]; rfl
  obtain ⟨r0, r1⟩ := floor_range (clip0_nonneg (n - 2) (v Tabread4.in0 0 t)) (clip0_le hn' _)
  refine ⟨?_, r0, r1⟩
  have h14 := hrd 14 (.inr rfl) _ i14 r0 (by omega)
  have h13 := hrd 13 (.inl rfl) _ i13 (by omega) r1
  rw [Tabread4.o0, Tabread4.n4 h, Tabread4.n3 h, Tabread4.n1 h, Tabread4.n2 h, Tabread4.n19 h, hW.floor, h14, h13, h8]
  rfl

/-- **C78** `[tabread4~]`: for every signal and every table of at least two entries, once `[- 2]` has sent the size less 2: both indices
are in the table and the output is the linear interpolation at the position restricted to 0...n-2 -/
theorem tabread4_tilde {a1 : ℝ} (hW : IsReal W) (h : Solves W (Tabread4.patch a1) log v) {R : ℝ → ℤ} (hR : Whole R) {n : ℕ} (hn : 2 ≤ n)
    {T : ℤ → ℝ} (ho : Tab4 W R n T) (t : ℕ) (hs : heldAt W 0 (log t) 11 = n - 2) :
    inSum v ((Tabread4.patch a1).ins Tabread4.out0 0) t = lerp T (clip0 (n - 2) (v Tabread4.in0 0 t)) ∧
    0 ≤ ⌊clip0 (n - 2) (v Tabread4.in0 0 t)⌋ ∧ ⌊clip0 (n - 2) (v Tabread4.in0 0 t)⌋ + 1 < n := by
  refine tabread4_at hW h hR hn ho.cast ho.add t ?_ hs
  rintro o (rfl | rfl) i hi h0 h1
  · rw [other_of h (by simp [Tabread4.patch, ofConns]) rfl]
    exact ho.hi _ _ _ _ hi h0 h1
  · rw [other_of h (by simp [Tabread4.patch, ofConns]) rfl]
    exact ho.lo _ _ _ _ hi h0 h1

/-- **C78** at whole numbers from 0 to n-2 it is the entry -/
theorem tabread4_entry {a1 : ℝ} (hW : IsReal W) (h : Solves W (Tabread4.patch a1) log v) {R : ℝ → ℤ} (hR : Whole R) {n : ℕ} (hn : 2 ≤ n)
    {T : ℤ → ℝ} (ho : Tab4 W R n T) (t : ℕ) (hs : heldAt W 0 (log t) 11 = n - 2) {i : ℤ} (h0 : 0 ≤ i) (h1 : i + 2 ≤ n)
    (hx : v Tabread4.in0 0 t = i) : inSum v ((Tabread4.patch a1).ins Tabread4.out0 0) t = T i := by
  rw [(tabread4_tilde hW h hR hn ho t hs).1, hx, clip0_self (by exact_mod_cast h0), lerp_int]
  have : (i : ℝ) + 2 ≤ n := by exact_mod_cast h1
  linarith

/-- **C78** (finding): from n-2 on it is the last entry but one; the last entry, n-1, is never reached -/
theorem tabread4_end {a1 : ℝ} (hW : IsReal W) (h : Solves W (Tabread4.patch a1) log v) {R : ℝ → ℤ} (hR : Whole R) {n : ℕ} (hn : 2 ≤ n)
    {T : ℤ → ℝ} (ho : Tab4 W R n T) (t : ℕ) (hs : heldAt W 0 (log t) 11 = n - 2) (hx : (n : ℝ) - 2 ≤ v Tabread4.in0 0 t) :
    inSum v ((Tabread4.patch a1).ins Tabread4.out0 0) t = T (n - 2) := by
  have hn' : (0 : ℝ) ≤ n - 2 := by
    have : (2 : ℝ) ≤ n := by exact_mod_cast hn
    linarith
  rw [(tabread4_tilde hW h hR hn ho t hs).1, clip0_high hn' hx]
  have := lerp_int T (n - 2)
  push_cast at this
  exact this

/-- **C78** (finding): not the four-point interpolation of Pd, which reproduces every cubic curve: half way between the squares 1 and 4 this
is 2.5, not 2.25 -/
theorem tabread4_not_cubic {a1 : ℝ} (hW : IsReal W) (h : Solves W (Tabread4.patch a1) log v) {R : ℝ → ℤ} (hR : Whole R) {n : ℕ} (hn : 5 ≤ n)
    (ho : Tab4 W R n fun i => (i : ℝ) ^ 2) (t : ℕ) (hs : heldAt W 0 (log t) 11 = n - 2) (hx : v Tabread4.in0 0 t = 1.5) :
    inSum v ((Tabread4.patch a1).ins Tabread4.out0 0) t = 2.5 ∧ (2.5 : ℝ) ≠ 1.5 ^ 2 := by
  refine ⟨?_, by norm_num⟩
  have h5 : (5 : ℝ) ≤ n := by exact_mod_cast hn
  rw [(tabread4_tilde hW h hR (by omega) ho t hs).1, hx, clip0_self (by norm_num) (by linarith)]
  have hf : ⌊(1.5 : ℝ)⌋ = 1 := by norm_num [Int.floor_eq_iff]
  unfold lerp
  rw [Int.fract, hf]
  norm_num

/-- **C78** (finding): the size is asked for when the program starts and at `set`, not when the table is resized; with the old size, a position
beyond a table that shrank since makes an index outside of it -/
theorem tabread4_stale {a1 : ℝ} (hW : IsReal W) (h : Solves W (Tabread4.patch a1) log v) {R : ℝ → ℤ} (hR : Whole R) {n m : ℕ} (hn : 2 ≤ n)
    (hm : m < n) {T : ℤ → ℝ} (ho : Tab4 W R n T) (t : ℕ) (hs : heldAt W 0 (log t) 11 = n - 2) (hx : (n : ℝ) - 2 ≤ v Tabread4.in0 0 t) :
    ∃ i : ℤ, inSum v ((Tabread4.patch a1).ins 13 0) t = i ∧ (m : ℤ) ≤ i := by
  obtain ⟨_, i13⟩ := tabread4_indices hW h hR ho.cast ho.add t
  have hn' : (0 : ℝ) ≤ n - 2 := by
    have : (2 : ℝ) ≤ n := by exact_mod_cast hn
    linarith
  refine ⟨_, i13, ?_⟩
  rw [hs, clip0_high hn' hx]
  have : ⌊(n : ℝ) - 2⌋ = (n : ℤ) - 2 := by
    have := Int.floor_intCast (R := ℝ) ((n : ℤ) - 2)
    push_cast at this
    exact this
  omega

/-! ### tabread~ -/

/-- the objects of `[tabread~]` -/
structure Tab1 (W : World ℝ μ) (R : ℝ → ℤ) (n : ℕ) (T : ℤ → ℝ) : Prop where
  cast : IsCast W 1 R
  read : IsReader W 6 n T

theorem tabread_index_at {a1 : ℝ} (hW : IsReal W) (h : Solves W (Tabread.patch a1) log v) {R : ℝ → ℤ} {n : ℕ} {T : ℤ → ℝ} (hc : IsCast W 1 R) {t : ℕ}
    (hr : ∀ i : ℤ, inSum v ((Tabread.patch a1).ins 6 0) t = i → 0 ≤ i → i < n → v 6 0 t = T i)
    (hs : heldAt W 0 (log t) 10 = n - 1) (h0 : 0 ≤ R (clip0 (n - 1) (v Tabread.in0 0 t))) (h1 : R (clip0 (n - 1) (v Tabread.in0 0 t)) < n) :
    inSum v ((Tabread.patch a1).ins Tabread.out0 0) t = T (R (clip0 (n - 1) (v Tabread.in0 0 t))) := by
  have h2 : v 2 0 t = clip0 (n - 1) (v Tabread.in0 0 t) := by
    rw [Tabread.n2 h, Tabread.n4 h, hW.max, hW.min, held_eq, hs]; rfl
  have e1 : inSum v ((Tabread.patch a1).ins 1 0) t = v 2 0 t := by simp [Tabread.patch, ofConns, Tabread.conns, Conn.into, inSum]
  have h1' : v 1 0 t = (R (clip0 (n - 1) (v Tabread.in0 0 t)) : ℝ) := by
    rw [other_of h (by simp [Tabread.patch, ofConns]) rfl, hc, e1, h2]
  have e6 : inSum v ((Tabread.patch a1).ins 6 0) t = v 1 0 t := by simp [Tabread.patch, ofConns, Tabread.conns, Conn.into, inSum]
  rw [Tabread.o0]
  exact hr _ (e6.trans h1') h0 h1

/-- `[tabread~]`, NEON and scalar: the entry at the position rounded down, restricted to the table -/
theorem tabread_tilde_cut_at {a1 : ℝ} (hW : IsReal W) (h : Solves W (Tabread.patch a1) log v) {R : ℝ → ℤ} (hR : Cuts R) {n : ℕ} (hn : 1 ≤ n)
    {T : ℤ → ℝ} (hc : IsCast W 1 R) {t : ℕ}
    (hr : ∀ i : ℤ, inSum v ((Tabread.patch a1).ins 6 0) t = i → 0 ≤ i → i < n → v 6 0 t = T i) (hs : heldAt W 0 (log t) 10 = n - 1) :
    inSum v ((Tabread.patch a1).ins Tabread.out0 0) t = T ⌊clip0 (n - 1) (v Tabread.in0 0 t)⌋ ∧
    0 ≤ ⌊clip0 (n - 1) (v Tabread.in0 0 t)⌋ ∧ ⌊clip0 (n - 1) (v Tabread.in0 0 t)⌋ < n := by
  have hn' : (0 : ℝ) ≤ n - 1 := by
    have : (1 : ℝ) ≤ n := by exact_mod_cast hn
    linarith
  have a := clip0_nonneg (n - 1) (v Tabread.in0 0 t)
  have b := clip0_le hn' (v Tabread.in0 0 t)
  have e := hR _ a
  have r0 : 0 ≤ ⌊clip0 (n - 1) (v Tabread.in0 0 t)⌋ := Int.floor_nonneg.2 a
  have r1 : ⌊clip0 (n - 1) (v Tabread.in0 0 t)⌋ < n := by
    have := Int.floor_le (clip0 (n - 1) (v Tabread.in0 0 t))
    have : (⌊clip0 (n - 1) (v Tabread.in0 0 t)⌋ : ℝ) < n := by linarith
    exact_mod_cast this
  refine ⟨?_, r0, r1⟩
  rw [tabread_index_at hW h hc hr hs (by rw [e]; exact r0) (by rw [e]; exact r1), e]

/-- `[tabread~]`, SSE and AVX: the entry at the nearest whole position (F67), restricted to the table -/
theorem tabread_tilde_round_at {a1 : ℝ} (hW : IsReal W) (h : Solves W (Tabread.patch a1) log v) {R : ℝ → ℤ} (hR : Rounds R) {n : ℕ} (hn : 1 ≤ n)
    {T : ℤ → ℝ} (hc : IsCast W 1 R) {t : ℕ}
    (hr : ∀ i : ℤ, inSum v ((Tabread.patch a1).ins 6 0) t = i → 0 ≤ i → i < n → v 6 0 t = T i) (hs : heldAt W 0 (log t) 10 = n - 1) :
    ∃ i : ℤ, |(i : ℝ) - clip0 (n - 1) (v Tabread.in0 0 t)| ≤ 1 / 2 ∧ 0 ≤ i ∧ i < n ∧
      inSum v ((Tabread.patch a1).ins Tabread.out0 0) t = T i := by
  have hn' : (0 : ℝ) ≤ n - 1 := by
    have : (1 : ℝ) ≤ n := by exact_mod_cast hn
    linarith
  have a := clip0_nonneg (n - 1) (v Tabread.in0 0 t)
  have b := clip0_le hn' (v Tabread.in0 0 t)
  have e := hR (clip0 (n - 1) (v Tabread.in0 0 t))
  have e' := abs_le.1 e
  have r0 : 0 ≤ R (clip0 (n - 1) (v Tabread.in0 0 t)) := by
    have : (-1 : ℝ) < R (clip0 (n - 1) (v Tabread.in0 0 t)) := by linarith [e'.1]
    have : (-1 : ℤ) < R (clip0 (n - 1) (v Tabread.in0 0 t)) := by exact_mod_cast this
    omega
  have r1 : R (clip0 (n - 1) (v Tabread.in0 0 t)) < n := by
    have : (R (clip0 (n - 1) (v Tabread.in0 0 t)) : ℝ) < n := by linarith [e'.2]
    exact_mod_cast this
  exact ⟨_, e, r0, r1, tabread_index_at hW h hc hr hs r0 r1⟩

theorem Tab1.at {a1 : ℝ} (h : Solves W (Tabread.patch a1) log v) {R : ℝ → ℤ} {n : ℕ} {T : ℤ → ℝ} (ho : Tab1 W R n T) (t : ℕ) (i : ℤ)
    (hi : inSum v ((Tabread.patch a1).ins 6 0) t = i) (h0 : 0 ≤ i) (h1 : i < n) : v 6 0 t = T i := by
  rw [other_of h (by simp [Tabread.patch, ofConns]) rfl]
  exact ho.read _ _ _ _ hi h0 h1

/-- **C78** `[tabread~]`, NEON and scalar: the entry at the position rounded down, restricted to the table -/
theorem tabread_tilde_cut {a1 : ℝ} (hW : IsReal W) (h : Solves W (Tabread.patch a1) log v) {R : ℝ → ℤ} (hR : Cuts R) {n : ℕ} (hn : 1 ≤ n)
    {T : ℤ → ℝ} (ho : Tab1 W R n T) (t : ℕ) (hs : heldAt W 0 (log t) 10 = n - 1) :
    inSum v ((Tabread.patch a1).ins Tabread.out0 0) t = T ⌊clip0 (n - 1) (v Tabread.in0 0 t)⌋ ∧
    0 ≤ ⌊clip0 (n - 1) (v Tabread.in0 0 t)⌋ ∧ ⌊clip0 (n - 1) (v Tabread.in0 0 t)⌋ < n :=
  tabread_tilde_cut_at hW h hR hn ho.cast (ho.at h t) hs

/-- **C78** `[tabread~]`, SSE and AVX: the entry at the nearest whole position (F67), restricted to the table -/
theorem tabread_tilde_round {a1 : ℝ} (hW : IsReal W) (h : Solves W (Tabread.patch a1) log v) {R : ℝ → ℤ} (hR : Rounds R) {n : ℕ} (hn : 1 ≤ n)
    {T : ℤ → ℝ} (ho : Tab1 W R n T) (t : ℕ) (hs : heldAt W 0 (log t) 10 = n - 1) :
    ∃ i : ℤ, |(i : ℝ) - clip0 (n - 1) (v Tabread.in0 0 t)| ≤ 1 / 2 ∧ 0 ≤ i ∧ i < n ∧
      inSum v ((Tabread.patch a1).ins Tabread.out0 0) t = T i :=
  tabread_tilde_round_at hW h hR hn ho.cast (ho.at h t) hs

/-! ### tabosc4~ -/

/-- the objects of `[tabosc4~]` -/
structure Osc4 (W : World ℝ μ) (R : ℝ → ℤ) (n : ℕ) (T : ℤ → ℝ) : Prop where
  cast : IsCast W 10 R
  add : IsAddI W 11
  hi : IsReader W 13 n T
  lo : IsReader W 14 n T

/-- `[tabosc4~]`: with the phase `φ` of its phasor in [0, 1) the output is the linear interpolation at `φ (n - 2)`: a turn takes the
first n-2 entries, the last one is not used -/
theorem tabosc4_tilde_at {a1 : ℝ} (hW : IsReal W) (h : Solves W (Tabosc4.patch a1) log v) {R : ℝ → ℤ} (hR : Whole R) {n : ℕ} (hn : 2 ≤ n)
    {T : ℤ → ℝ} (hcast : IsCast W 10 R) (hadd : IsAddI W 11) {t : ℕ}
    (hrd : ∀ o, o = 13 ∨ o = 14 → ∀ i : ℤ, inSum v ((Tabosc4.patch a1).ins o 0) t = i → 0 ≤ i → i < n → v o 0 t = T i) (hs : heldAt W 0 (log t) 15 = n - 2) (h0 : 0 ≤ v 20 0 t) (h1 : v 20 0 t < 1) :
    inSum v ((Tabosc4.patch a1).ins Tabosc4.out0 0) t = lerp T (v 20 0 t * (n - 2)) ∧
    0 ≤ ⌊v 20 0 t * (n - 2)⌋ ∧ ⌊v 20 0 t * (n - 2)⌋ + 1 < n := by
  have hn' : (0 : ℝ) ≤ n - 2 := by
    have : (2 : ℝ) ≤ n := by exact_mod_cast hn
    linarith
  have hx : v 0 0 t = v 20 0 t * (n - 2) := by rw [Tabosc4.n0 h, held_eq, hs]
  obtain ⟨r0, r1⟩ := floor_range (c := v 20 0 t * (n - 2)) (by positivity) (by nlinarith)
  refine ⟨?_, r0, r1⟩
  have h9 : v 9 0 t = ((⌊v 0 0 t⌋ : ℤ) : ℝ) := by rw [Tabosc4.n9 h, hW.floor]
  have h10 : v 10 0 t = ((⌊v 0 0 t⌋ : ℤ) : ℝ) := by
    rw [other_of h (by simp [Tabosc4.patch, ofConns]) rfl, hcast]
    have : inSum v ((Tabosc4.patch a1).ins 10 0) t = v 9 0 t := by simp [Tabosc4.patch, ofConns, Tabosc4.conns, Conn.into, inSum]
    rw [this, h9, hR]
  have h12 : v 12 0 t = 1 := by exact Tabosc4.n12 h t
  have h11 : v 11 0 t = ((⌊v 0 0 t⌋ + 1 : ℤ) : ℝ) := by
    rw [other_of h (by simp [Tabosc4.patch, ofConns]) rfl, hadd]
    have e0 : inSum v ((Tabosc4.patch a1).ins 11 0) t = v 10 0 t := by simp [Tabosc4.patch, ofConns, Tabosc4.conns, Conn.into, inSum]
    have e1 : inSum v ((Tabosc4.patch a1).ins 11 1) t = v 12 0 t := by simp [Tabosc4.patch, ofConns, Tabosc4.conns, Conn.into, inSum]
    rw [e0, e1, h10, h12]; push_cast; rfl
  have h14 : v 14 0 t = T ⌊v 20 0 t * (n - 2)⌋ := by
    refine hrd 14 (.inr rfl) _ ?_ r0 (by omega)
    have : inSum v ((Tabosc4.patch a1).ins 14 0) t = v 10 0 t := by simp [Tabosc4.patch, ofConns, Tabosc4.conns, Conn.into, inSum]
    rw [this, h10, hx]
  have h13 : v 13 0 t = T (⌊v 20 0 t * (n - 2)⌋ + 1) := by
    refine hrd 13 (.inl rfl) _ ?_ (by omega) r1
    have : inSum v ((Tabosc4.patch a1).ins 13 0) t = v 11 0 t := by simp [Tabosc4.patch, ofConns, Tabosc4.conns, Conn.into, inSum]
    rw [this, h11, hx]
  rw [Tabosc4.o0, Tabosc4.n8 h, Tabosc4.n7 h, Tabosc4.n5 h, Tabosc4.n6 h, Tabosc4.n9 h, hW.floor, h14, h13, hx]
  rfl

/-- **C78** `[tabosc4~]`: with the phase `φ` of its phasor in [0, 1) the output is the linear interpolation at `φ (n - 2)`: a turn takes the
first n-2 entries, the last one is not used -/
theorem tabosc4_tilde {a1 : ℝ} (hW : IsReal W) (h : Solves W (Tabosc4.patch a1) log v) {R : ℝ → ℤ} (hR : Whole R) {n : ℕ} (hn : 2 ≤ n)
    {T : ℤ → ℝ} (ho : Osc4 W R n T) (t : ℕ) (hs : heldAt W 0 (log t) 15 = n - 2) (h0 : 0 ≤ v 20 0 t) (h1 : v 20 0 t < 1) :
    inSum v ((Tabosc4.patch a1).ins Tabosc4.out0 0) t = lerp T (v 20 0 t * (n - 2)) ∧
    0 ≤ ⌊v 20 0 t * (n - 2)⌋ ∧ ⌊v 20 0 t * (n - 2)⌋ + 1 < n := by
  refine tabosc4_tilde_at hW h hR hn ho.cast ho.add ?_ hs h0 h1
  rintro o (rfl | rfl) i hi i0 i1
  · rw [other_of h (by simp [Tabosc4.patch, ofConns]) rfl]
    exact ho.hi _ _ _ _ hi i0 i1
  · rw [other_of h (by simp [Tabosc4.patch, ofConns]) rfl]
    exact ho.lo _ _ _ _ hi i0 i1

/-- **C78** (finding): a table made for Pd, with a period of `p` points and the guard points -1, p, p+1, has p+3 entries, and entry j is that of
point j-1.  [tabosc4~] starts at the guard point, and its turn is p+1 points long -/
theorem tabosc4_guard {a1 : ℝ} (hW : IsReal W) (h : Solves W (Tabosc4.patch a1) log v) {R : ℝ → ℤ} (hR : Whole R) {p : ℕ} {f : ℤ → ℝ}
    (ho : Osc4 W R (p + 3) fun j => f (j - 1)) (t : ℕ) (hs : heldAt W 0 (log t) 15 = p + 1) (h0 : 0 ≤ v 20 0 t) (h1 : v 20 0 t < 1) :
    inSum v ((Tabosc4.patch a1).ins Tabosc4.out0 0) t = lerp f (v 20 0 t * (p + 1) - 1) := by
  have := (tabosc4_tilde hW h hR (n := p + 3) (by omega) ho t (by rw [hs]; push_cast; ring) h0 h1).1
  rw [this]
  unfold lerp
  have e : v 20 0 t * (((p + 3 : ℕ) : ℝ) - 2) = v 20 0 t * (p + 1) - 1 + 1 := by push_cast; ring
  rw [e, Int.floor_add_one, Int.fract_add_one]
  simp only [add_sub_cancel_right]

/-! ### the hypotheses can be met -/

/-- a world with tables: the cast of NEON, a table of `n` entries, and the position `x` at the inlet -/
noncomputable def tabWorld (cast add one hi lo inp : ℕ) (T : ℤ → ℝ) (x : ℕ → ℝ) : World ℝ ℝ where
  bin s a b := if s = "max" then max a b else if s = "min" then min a b else if s = "&" then (if a = 1 then b else 0)
    else if s = ">" then (if a > b then 1 else 0) else 0
  un s a := if s = "abs" then |a| else if s = "floor" then ⌊a⌋ else if s = "exp" then Real.exp a else if s = "log2" then Real.logb 2 a
    else if s = "sqrt" then √a else 0
  num := some
  beh o sig _ _ t := if o = cast then ((if 0 ≤ sig 0 t then ⌊sig 0 t⌋ else ⌈sig 0 t⌉ : ℤ) : ℝ) else if o = add then sig 0 t + sig 1 t
    else if o = one then 1 else if o = hi ∨ o = lo then T ⌊sig 0 t⌋ else if o = inp then x t else 0
  late _ _ := false
  block := 64

theorem tabWorld_real (a b c d e i : ℕ) (T : ℤ → ℝ) (x : ℕ → ℝ) : IsReal (tabWorld a b c d e i T x) := by
  constructor <;> intros <;> simp [tabWorld]

theorem tabWorld_whole : Whole fun y => if 0 ≤ y then ⌊y⌋ else ⌈y⌉ := by
  intro n
  simp

theorem tabWorld_tab4 (i n : ℕ) (T : ℤ → ℝ) (x : ℕ → ℝ) : Tab4 (tabWorld 5 6 7 13 14 i T x) (fun y => if 0 ≤ y then ⌊y⌋ else ⌈y⌉) n T := by
  constructor
  · intro s m t; simp [tabWorld]
  · intro s m t; simp [tabWorld]
  · intro s m t i h _ _; simp [tabWorld, h]
  · intro s m t i h _ _; simp [tabWorld, h]

/-- a table of 8 entries, the size sent by `[- 2]`, position 2.5 -/
example : ∃ v, Solves (tabWorld 5 6 7 13 14 21 (fun i => (i : ℝ) ^ 2) fun _ => 2.5) (Tabread4.patch 0) (fun _ => [⟨11, 0, 6⟩]) v ∧ ∀ t,
    inSum v ((Tabread4.patch 0).ins Tabread4.out0 0) t = 6.5 := by
  obtain ⟨v, hv⟩ := Tabread4.signals 0 (tabWorld 5 6 7 13 14 21 (fun i => (i : ℝ) ^ 2) fun _ => 2.5) fun _ => [⟨11, 0, 6⟩]
  refine ⟨v, hv, fun t => ?_⟩
  have hx : v Tabread4.in0 0 t = 2.5 := by
    rw [other_of hv (by simp [Tabread4.patch, ofConns]) rfl]
    simp [tabWorld]
  have := (tabread4_tilde (n := 8) (tabWorld_real ..) hv tabWorld_whole (by norm_num) (tabWorld_tab4 ..) t
    (by norm_num [heldAt, tabWorld])).1
  rw [this, hx, clip0_self (by norm_num) (by norm_num)]
  have hf : ⌊(2.5 : ℝ)⌋ = 2 := by norm_num [Int.floor_eq_iff]
  unfold lerp
  rw [Int.fract, hf]
  norm_num

/-- `[tabread~]`, position 2.7: entry 2 in the truncating builds -/
example : ∃ v, Solves (tabWorld 1 20 21 6 22 12 (fun i => (i : ℝ) ^ 2) fun _ => 2.7) (Tabread.patch 0) (fun _ => [⟨10, 0, 7⟩]) v ∧ ∀ t,
    inSum v ((Tabread.patch 0).ins Tabread.out0 0) t = 4 := by
  obtain ⟨v, hv⟩ := Tabread.signals 0 (tabWorld 1 20 21 6 22 12 (fun i => (i : ℝ) ^ 2) fun _ => 2.7) fun _ => [⟨10, 0, 7⟩]
  refine ⟨v, hv, fun t => ?_⟩
  have hx : v Tabread.in0 0 t = 2.7 := by
    rw [other_of hv (by simp [Tabread.patch, ofConns]) rfl]
    simp [tabWorld]
  have ho : Tab1 (tabWorld 1 20 21 6 22 12 (fun i => (i : ℝ) ^ 2) fun _ => 2.7) (fun y => if 0 ≤ y then ⌊y⌋ else ⌈y⌉) 8 fun i => (i : ℝ) ^ 2 := by
    constructor
    · intro s m t; simp [tabWorld]
    · intro s m t i h _ _; simp [tabWorld, h]
  have := (tabread_tilde_cut (n := 8) (tabWorld_real ..) hv (fun y hy => by simp [hy]) (by norm_num) ho t (by norm_num [heldAt, tabWorld])).1
  rw [this, hx, clip0_self (by norm_num) (by norm_num)]
  have hf : ⌊(2.7 : ℝ)⌋ = 2 := by norm_num [Int.floor_eq_iff]
  rw [hf]
  norm_num

/-- rounding to the nearest exists -/
example : Rounds fun x => round x := fun x => by rw [abs_sub_comm]; exact abs_sub_round x

/-- `[tabosc4~]` on the table `i ↦ i` of 10 entries at the phase 1/3 -/
example : ∃ v, Solves (tabWorld 10 11 12 13 14 20 (fun i => (i : ℝ)) fun _ => 1 / 3) (Tabosc4.patch 0) (fun _ => [⟨15, 0, 8⟩]) v ∧ ∀ t,
    inSum v ((Tabosc4.patch 0).ins Tabosc4.out0 0) t = 8 / 3 := by
  obtain ⟨v, hv⟩ := Tabosc4.signals 0 (tabWorld 10 11 12 13 14 20 (fun i => (i : ℝ)) fun _ => 1 / 3) fun _ => [⟨15, 0, 8⟩]
  refine ⟨v, hv, fun t => ?_⟩
  have hx : v 20 0 t = 1 / 3 := by
    rw [other_of hv (by simp [Tabosc4.patch, ofConns]) rfl]
    simp [tabWorld]
  have ho : Osc4 (tabWorld 10 11 12 13 14 20 (fun i => (i : ℝ)) fun _ => 1 / 3) (fun y => if 0 ≤ y then ⌊y⌋ else ⌈y⌉) 10 fun i => (i : ℝ) := by
    constructor
    · intro s m t; simp [tabWorld]
    · intro s m t; simp [tabWorld]
    · intro s m t i h _ _; simp [tabWorld, h]
    · intro s m t i h _ _; simp [tabWorld, h]
  have := (tabosc4_tilde (n := 10) (tabWorld_real ..) hv tabWorld_whole (by norm_num) ho t (by norm_num [heldAt, tabWorld]) (by rw [hx]; norm_num)
    (by rw [hx]; norm_num)).1
  rw [this, hx]
  have := lerp_line 0 1 (1 / 3 * (((10 : ℕ) : ℝ) - 2))
  simp only [zero_add, one_mul] at this
  rw [this]
  norm_num

end Verif.Sig
