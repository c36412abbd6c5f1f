import Verif.HvMath
import Mathlib.Data.Fintype.Basic
import Mathlib.Tactic.FinCases
/-!
C60: a signal function gives, at every sample, the number the scalar build gives, in whichever vector build the
generated code is compiled.

The scalar build is `Build.none`: vectors of one lane.  "The same" is `Same`: the same bits, or both zero, or both not a
number.  `lane x i` is sample `i` of a vector, as the scalar build gets it.
-/
namespace Verif.HvMath
open Verif.Simd (V)

/-! ### specification -/

/-- two samples are the same number; the sign of a zero and the payload of a NaN do not count -/
def Same (a b : W) : Prop := a = b ∨ (isZero a = true ∧ isZero b = true) ∨ (isNaN a = true ∧ isNaN b = true)

/-- one sample of a vector, as the scalar build gets it -/
def lane {N : Nat} (x : V N W) (i : Fin N) : Vec .none := fun _ => x i

/-- What is assumed of the arithmetic and of the C library: that the result is a function of the numbers, for division
by something other than zero; that multiplying by −1 changes the sign; and the C standard's `fminf` and `fmaxf` for
operands that are numbers. -/
structure Lawful (hw : Hw) : Prop where
  add : ∀ a a' b b' : W, Same a a' → Same b b' → Same (hw.add a b) (hw.add a' b')
  sub : ∀ a a' b b' : W, Same a a' → Same b b' → Same (hw.sub a b) (hw.sub a' b')
  mul : ∀ a a' b b' : W, Same a a' → Same b b' → Same (hw.mul a b) (hw.mul a' b')
  div : ∀ a a' b b' : W, Same a a' → Same b b' → isZero b = false → Same (hw.div a b) (hw.div a' b')
  sqrt : ∀ a a' : W, Same a a' → Same (hw.sqrt a) (hw.sqrt a')
  cos : ∀ a a' : W, Same a a' → Same (hw.cos a) (hw.cos a')
  exp : ∀ a a' : W, Same a a' → Same (hw.exp a) (hw.exp a')
  floor : ∀ a a' : W, Same a a' → Same (hw.floor a) (hw.floor a')
  ceil : ∀ a a' : W, Same a a' → Same (hw.ceil a) (hw.ceil a')
  mul_negOne : ∀ a : W, Same (hw.mul a negOne) (a ^^^ signBit)
  fminf : ∀ a b : W, isNaN a = false → isNaN b = false →
    (hw.fminf a b = a ∨ hw.fminf a b = b) ∧ fle (hw.fminf a b) a = true ∧ fle (hw.fminf a b) b = true
  fmaxf : ∀ a b : W, isNaN a = false → isNaN b = false →
    (hw.fmaxf a b = a ∨ hw.fmaxf a b = b) ∧ fle a (hw.fmaxf a b) = true ∧ fle b (hw.fmaxf a b) = true

/-! ### numbers -/

theorem Same.refl (a : W) : Same a a := Or.inl rfl

theorem Same.symm {a b : W} (h : Same a b) : Same b a := by
  rcases h with h | h | h
  · exact Or.inl h.symm
  · exact Or.inr (Or.inl ⟨h.2, h.1⟩)
  · exact Or.inr (Or.inr ⟨h.2, h.1⟩)

theorem isZero_not_nan {a : W} (h : isZero a = true) : isNaN a = false := by
  simp only [isZero, beq_iff_eq] at h
  simp [isNaN, h]

theorem Same.nan {a b : W} (h : Same a b) : isNaN a = isNaN b := by
  rcases h with h | ⟨h, h'⟩ | ⟨h, h'⟩
  · rw [h]
  · rw [isZero_not_nan h, isZero_not_nan h']
  · rw [h, h']

theorem isNaN_not_zero {a : W} (h : isNaN a = true) : isZero a = false := by
  cases hz : isZero a with
  | false => rfl
  | true => rw [isZero_not_nan hz] at h; cases h

theorem Same.zero {a b : W} (h : Same a b) : isZero a = isZero b := by
  rcases h with h | ⟨h, h'⟩ | ⟨h, h'⟩
  · rw [h]
  · rw [h, h']
  · rw [isNaN_not_zero h, isNaN_not_zero h']

theorem Same.trans {a b c : W} (h : Same a b) (h' : Same b c) : Same a c := by
  have hz := h.zero; have hn := h.nan
  rcases h' with h' | ⟨h1, h2⟩ | ⟨h1, h2⟩
  · exact h' ▸ h
  · exact Or.inr (Or.inl ⟨hz.trans h1, h2⟩)
  · exact Or.inr (Or.inr ⟨hn.trans h1, h2⟩)

theorem key_zero {a : W} (h : isZero a = true) : key a = 0 := by
  simp only [isZero, beq_iff_eq] at h
  simp [key, h]

/-- equal numbers have equal keys -/
theorem Same.key {a b : W} (h : Same a b) (hn : isNaN a = false) : key a = key b := by
  rcases h with h | ⟨h, h'⟩ | ⟨h, h'⟩
  · rw [h]
  · rw [key_zero h, key_zero h']
  · rw [hn] at h; cases h

theorem mag_eq (w : W) : mag w = w.toNat % 2 ^ 31 := by
  simp only [mag, BitVec.toNat_and, BitVec.toNat_ofNat]
  have := Nat.and_two_pow_sub_one_eq_mod w.toNat 31
  simpa using this

theorem toNat_eq (w : W) : w.toNat = mag w + (if w.msb then 2 ^ 31 else 0) := by
  have h := w.isLt
  rw [mag_eq, BitVec.msb_eq_decide]
  simp
  split <;> omega

/-- and numbers with equal keys are the same -/
theorem same_of_key {a b : W} (h : key a = key b) : Same a b := by
  have ha := toNat_eq a
  have hb := toNat_eq b
  unfold key at h
  cases hma : a.msb <;> cases hmb : b.msb <;> simp only [hma, hmb, if_true, if_false, Bool.false_eq_true] at h ha hb
  · exact Or.inl (BitVec.eq_of_toNat_eq (by omega))
  · refine Or.inr (Or.inl ⟨?_, ?_⟩) <;> simp only [isZero, beq_iff_eq] <;> omega
  · refine Or.inr (Or.inl ⟨?_, ?_⟩) <;> simp only [isZero, beq_iff_eq] <;> omega
  · exact Or.inl (BitVec.eq_of_toNat_eq (by omega))

theorem flt_congr {a a' b b' : W} (ha : Same a a') (hb : Same b b') : flt a b = flt a' b' := by
  unfold flt
  rw [ha.nan, hb.nan]
  cases h : isNaN a' with
  | true => simp
  | false =>
    cases h' : isNaN b' with
    | true => simp
    | false => rw [ha.key (ha.nan.trans h), hb.key (hb.nan.trans h')]

theorem fle_congr {a a' b b' : W} (ha : Same a a') (hb : Same b b') : fle a b = fle a' b' := by
  unfold fle
  rw [ha.nan, hb.nan]
  cases h : isNaN a' with
  | true => simp
  | false =>
    cases h' : isNaN b' with
    | true => simp
    | false => rw [ha.key (ha.nan.trans h), hb.key (hb.nan.trans h')]

theorem feq_congr {a a' b b' : W} (ha : Same a a') (hb : Same b b') : feq a b = feq a' b' := by
  unfold feq
  rw [ha.nan, hb.nan]
  cases h : isNaN a' with
  | true => simp
  | false =>
    cases h' : isNaN b' with
    | true => simp
    | false => rw [ha.key (ha.nan.trans h), hb.key (hb.nan.trans h')]

theorem feq_zero (a : W) : feq a 0 = isZero a := by
  have h0 : isNaN (0 : W) = false := by decide
  have k0 : key (0 : W) = 0 := by decide
  unfold feq
  rw [h0, k0]
  cases hz : isZero a with
  | true => simp [isZero_not_nan hz, key_zero hz]
  | false =>
    have : key a ≠ 0 := by
      intro hk
      have : Same a 0 := same_of_key (by rw [hk, k0])
      have := this.zero
      rw [hz] at this
      exact absurd this (by decide)
    simp [this]

theorem same_of_fle {a b : W} (h : fle a b = true) (h' : fle b a = true) : Same a b := by
  simp only [fle, Bool.and_eq_true, decide_eq_true_eq] at h h'
  exact same_of_key (by omega)

theorem fle_total {a b : W} (ha : isNaN a = false) (hb : isNaN b = false) :
    fle a b = true ∨ flt b a = true := by
  simp only [fle, flt, ha, hb, Bool.not_false, Bool.true_and, decide_eq_true_eq]
  omega

theorem fle_of_flt {a b : W} (h : flt a b = true) : fle a b = true := by
  simp only [fle, flt, Bool.and_eq_true, decide_eq_true_eq] at h ⊢
  exact ⟨h.1, by omega⟩

theorem fle_refl {a : W} (ha : isNaN a = false) : fle a a = true := by
  simp [fle, ha]

/-! ### one function at a time -/

theorem mm256Set_lane (f : Fin 8 → W) (i : Fin 8) : mm256Set (f 7) (f 6) (f 5) (f 4) (f 3) (f 2) (f 1) (f 0) i = f i := by
  fin_cases i <;> rfl

theorem mmSet_lane (f : Fin 4 → W) (i : Fin 4) : mmSet (f 3) (f 2) (f 1) (f 0) i = f i := by
  fin_cases i <;> rfl

theorem neonInit_lane (f : Fin 4 → W) (i : Fin 4) : neonInit (f 0) (f 1) (f 2) (f 3) i = f i := by
  fin_cases i <;> rfl

theorem join128_map2 (f : W → W → W) (x y : V 8 W) (i : Fin 8) :
    join128 (map2 f (low128 x) (low128 y)) (map2 f (high128 x) (high128 y)) i = f (x i) (y i) := by
  fin_cases i <;> rfl

/-- **The cosine, the exponential and the roundings**: bit for bit those of the scalar build, sample by sample. -/
theorem unary_exact (hw : Hw) (b : Build) (x : Vec b) (i : Fin b.lanes) :
    cosF hw b x i = cosF hw .none (lane x i) 0 ∧ expF hw b x i = expF hw .none (lane x i) 0
    ∧ floorF hw b x i = floorF hw .none (lane x i) 0 ∧ ceilF hw b x i = ceilF hw .none (lane x i) 0
    ∧ castIF hw b x i = castIF hw .none (lane x i) 0 := by
  cases b with
  | avx f => exact ⟨mm256Set_lane (fun i => hw.cos (x i)) i, mm256Set_lane (fun i => hw.exp (x i)) i, rfl, rfl, rfl⟩
  | sse f => exact ⟨mmSet_lane (fun i => hw.cos (x i)) i, mmSet_lane (fun i => hw.exp (x i)) i, rfl, rfl, rfl⟩
  | neon8 => exact ⟨neonInit_lane (fun i => hw.cos (x i)) i, neonInit_lane (fun i => hw.exp (x i)) i, rfl, rfl, rfl⟩
  | neon7 => exact ⟨neonInit_lane (fun i => hw.cos (x i)) i, neonInit_lane (fun i => hw.exp (x i)) i,
      neonInit_lane (fun i => hw.floor (x i)) i, neonInit_lane (fun i => hw.ceil (x i)) i, rfl⟩
  | none => exact ⟨rfl, rfl, rfl, rfl, rfl⟩

theorem andnot_signBit (a : W) : andnot signBit a = fabs a := by
  have : ~~~signBit = 0x7fffffff#32 := by decide
  rw [andnot, this, fabs, BitVec.and_comm]

/-- **The absolute value**: bit for bit. -/
theorem abs_exact (b : Build) (x : Vec b) (i : Fin b.lanes) : absF b x i = absF .none (lane x i) 0 := by
  cases b with
  | avx f => exact andnot_signBit _
  | sse f => exact andnot_signBit _
  | neon8 => rfl
  | neon7 => rfl
  | none => rfl

/-- **Sum, difference, product and power of floats; sum, product, least and greatest of integers**: bit for bit. -/
theorem binary_exact (hw : Hw) (b : Build) (x y : Vec b) (i : Fin b.lanes) :
    addF hw b x y i = addF hw .none (lane x i) (lane y i) 0
    ∧ subF hw b x y i = subF hw .none (lane x i) (lane y i) 0
    ∧ mulF hw b x y i = mulF hw .none (lane x i) (lane y i) 0
    ∧ powF hw b x y i = powF hw .none (lane x i) (lane y i) 0
    ∧ addI b x y i = addI .none (lane x i) (lane y i) 0
    ∧ mulI b x y i = mulI .none (lane x i) (lane y i) 0
    ∧ minI b x y i = minI .none (lane x i) (lane y i) 0
    ∧ maxI b x y i = maxI .none (lane x i) (lane y i) 0 := by
  cases b with
  | avx f => exact ⟨rfl, rfl, rfl, mm256Set_lane (fun i => hw.pow (x i) (y i)) i, join128_map2 _ x y i,
      join128_map2 _ x y i, join128_map2 _ x y i, join128_map2 _ x y i⟩
  | sse f => exact ⟨rfl, rfl, rfl, mmSet_lane (fun i => hw.pow (x i) (y i)) i, rfl, rfl, rfl, rfl⟩
  | neon8 => exact ⟨rfl, rfl, rfl, neonInit_lane (fun i => hw.pow (x i) (y i)) i, rfl, rfl, rfl, rfl⟩
  | neon7 => exact ⟨rfl, rfl, rfl, neonInit_lane (fun i => hw.pow (x i) (y i)) i, rfl, rfl, rfl, rfl⟩
  | none => exact ⟨rfl, rfl, rfl, rfl, rfl, rfl, rfl, rfl⟩

/-- the builds for Intel processors and the scalar build divide and take roots exactly; NEON estimates -/
def Build.exactDiv : Build → Bool
  | .avx _ => true
  | .sse _ => true
  | .neon8 => false
  | .neon7 => false
  | .none => true

theorem andnot_mask (p : Bool) (v : W) : andnot (maskOf p) v = if !p then v else 0 := by
  cases p
  · show ~~~(0 : W) &&& v = v
    have : ~~~(0 : W) = allOnes := by decide
    rw [this]; exact BitVec.allOnes_and (x := v)
  · show ~~~allOnes &&& v = 0
    have : ~~~allOnes = 0 := by decide
    rw [this]; exact BitVec.zero_and (x := v)

/-- **Division and square root**: bit for bit on Intel; dividing by zero gives zero in every build, NEON too. -/
theorem div_exact (hw : Hw) (b : Build) (x y : Vec b) (i : Fin b.lanes) :
    (b.exactDiv = true → divF hw b x y i = divF hw .none (lane x i) (lane y i) 0
      ∧ sqrtF hw b x i = sqrtF hw .none (lane x i) 0)
    ∧ (isZero (y i) = true → divF hw b x y i = 0) := by
  have bic_mask (p : Bool) (v : W) : bic v (maskOf p) = if !p then v else 0 := by
    rw [← andnot_mask, bic, andnot, BitVec.and_comm]
  constructor
  · intro h
    cases b with
    | avx f => exact ⟨andnot_mask _ _, rfl⟩
    | sse f => exact ⟨andnot_mask _ _, rfl⟩
    | neon8 => cases h
    | neon7 => cases h
    | none => exact ⟨rfl, rfl⟩
  · intro hz
    have hf : feq (y i) 0 = true := by rw [feq_zero]; exact hz
    cases b with
    | avx f => show andnot (maskOf (feq (y i) 0)) _ = 0; rw [hf, andnot_mask]; rfl
    | sse f => show andnot (maskOf (feq (y i) 0)) _ = 0; rw [hf, andnot_mask]; rfl
    | neon8 => show bic _ (maskOf (feq (y i) 0)) = 0; rw [hf, bic_mask]; rfl
    | neon7 => show bic _ (maskOf (feq (y i) 0)) = 0; rw [hf, bic_mask]; rfl
    | none => show (if !feq (y i) 0 then _ else (0 : W)) = 0; rw [hf]; rfl

theorem or_self_key {a b : W} (h : key a = key b) : Same (a ||| b) a ∧ Same (a &&& b) a := by
  rcases same_of_key h with e | ⟨ha, hb⟩ | ⟨ha, hb⟩
  · subst e; rw [BitVec.or_self, BitVec.and_self]; exact ⟨Same.refl _, Same.refl _⟩
  · have z : ∀ w : W, isZero w = true → w &&& 0x7fffffff#32 = 0#32 := fun w hw =>
      BitVec.eq_of_toNat_eq (by simpa [isZero, mag] using hw)
    have hz : ∀ w : W, w &&& 0x7fffffff#32 = 0#32 → isZero w = true := fun w hw => by simp [isZero, mag, hw]
    refine ⟨Or.inr (Or.inl ⟨hz _ ?_, ha⟩), Or.inr (Or.inl ⟨hz _ ?_, ha⟩)⟩
    · rw [BitVec.and_or_distrib_right, z a ha, z b hb]; rfl
    · rw [BitVec.and_assoc, z b hb]; exact BitVec.and_zero
  · have hk : key a = key b := h
    -- two NaNs with the same key have the same bits
    rcases same_of_key hk with e | ⟨ha', _⟩ | _
    · subst e; rw [BitVec.or_self, BitVec.and_self]; exact ⟨Same.refl _, Same.refl _⟩
    · rw [isZero_not_nan ha'] at ha; cases ha
    · have ta := toNat_eq a
      have tb := toNat_eq b
      have e : a = b := by
        unfold key at hk
        have na : 0 < mag a := by simp only [isNaN, decide_eq_true_eq] at ha; omega
        have nb : 0 < mag b := by simp only [isNaN, decide_eq_true_eq] at hb; omega
        cases hma : a.msb <;> cases hmb : b.msb <;>
          simp only [hma, hmb, if_true, if_false, Bool.false_eq_true] at hk ta tb
        · exact BitVec.eq_of_toNat_eq (by omega)
        · omega
        · omega
        · exact BitVec.eq_of_toNat_eq (by omega)
      subst e; rw [BitVec.or_self, BitVec.and_self]; exact ⟨Same.refl _, Same.refl _⟩

/-- a least one of two numbers -/
def IsMin (a b r : W) : Prop := (Same r a ∨ Same r b) ∧ fle r a = true ∧ fle r b = true
/-- a greatest one of two numbers -/
def IsMax (a b r : W) : Prop := (Same r a ∨ Same r b) ∧ fle a r = true ∧ fle b r = true

theorem isMin_unique {a b r r' : W} (h : IsMin a b r) (h' : IsMin a b r') : Same r r' := by
  refine same_of_fle ?_ ?_
  · rcases h'.1 with e | e
    · rw [fle_congr (Same.refl r) e]; exact h.2.1
    · rw [fle_congr (Same.refl r) e]; exact h.2.2
  · rcases h.1 with e | e
    · rw [fle_congr (Same.refl r') e]; exact h'.2.1
    · rw [fle_congr (Same.refl r') e]; exact h'.2.2

theorem isMax_unique {a b r r' : W} (h : IsMax a b r) (h' : IsMax a b r') : Same r r' := by
  refine same_of_fle ?_ ?_
  · rcases h.1 with e | e
    · rw [fle_congr e (Same.refl r')]; exact h'.2.1
    · rw [fle_congr e (Same.refl r')]; exact h'.2.2
  · rcases h'.1 with e | e
    · rw [fle_congr e (Same.refl r)]; exact h.2.1
    · rw [fle_congr e (Same.refl r)]; exact h.2.2

theorem isMin_congr {a a' b b' r : W} (ha : Same a a') (hb : Same b b') (h : IsMin a b r) : IsMin a' b' r :=
  ⟨h.1.imp (·.trans ha) (·.trans hb), by rw [← fle_congr (Same.refl r) ha]; exact h.2.1,
    by rw [← fle_congr (Same.refl r) hb]; exact h.2.2⟩

theorem isMax_congr {a a' b b' r : W} (ha : Same a a') (hb : Same b b') (h : IsMax a b r) : IsMax a' b' r :=
  ⟨h.1.imp (·.trans ha) (·.trans hb), by rw [← fle_congr ha (Same.refl r)]; exact h.2.1,
    by rw [← fle_congr hb (Same.refl r)]; exact h.2.2⟩

theorem flt_or {a b : W} (ha : isNaN a = false) (hb : isNaN b = false) :
    flt a b = true ∧ flt b a = false ∨ flt a b = false ∧ flt b a = true
    ∨ flt a b = false ∧ flt b a = false ∧ key a = key b := by
  simp only [flt, ha, hb, Bool.not_false, Bool.true_and, decide_eq_true_eq, decide_eq_false_iff_not]
  omega

theorem fle_of_key {a b : W} (ha : isNaN a = false) (hb : isNaN b = false) (h : key a ≤ key b) : fle a b = true := by
  simp [fle, ha, hb, h]

/-- **Least and greatest**: in every build, of two numbers (neither a NaN), a least one and a greatest one; so the same
number as in the scalar build. -/
theorem minmax_ok (hw : Hw) (L : Lawful hw) (b : Build) (x y : Vec b) (i : Fin b.lanes)
    (hx : isNaN (x i) = false) (hy : isNaN (y i) = false) :
    IsMin (x i) (y i) (minF hw b x y i) ∧ IsMax (x i) (y i) (maxF hw b x y i) := by
  have key_of_flt {a b : W} (h : flt a b = true) : key a ≤ key b := by
    simp only [flt, Bool.and_eq_true, decide_eq_true_eq] at h; omega
  have ps : IsMin (x i) (y i) (minps (x i) (y i)) ∧ IsMax (x i) (y i) (maxps (x i) (y i)) := by
    rcases flt_or hx hy with ⟨h, h'⟩ | ⟨h, h'⟩ | ⟨h, h', e⟩
    · rw [minps, maxps, h, h']
      exact ⟨⟨Or.inl (Same.refl _), fle_refl hx, fle_of_flt h⟩, ⟨Or.inr (Same.refl _), fle_of_flt h, fle_refl hy⟩⟩
    · rw [minps, maxps, h, h']
      exact ⟨⟨Or.inr (Same.refl _), fle_of_flt h', fle_refl hy⟩, ⟨Or.inl (Same.refl _), fle_refl hx, fle_of_flt h'⟩⟩
    · rw [minps, maxps, h, h']
      simp only [Bool.false_eq_true, if_false]
      exact ⟨⟨Or.inr (Same.refl _), fle_of_key hy hx (by omega), fle_refl hy⟩,
        ⟨Or.inr (Same.refl _), fle_of_key hx hy (by omega), fle_refl hy⟩⟩
  have vv : IsMin (x i) (y i) (vmin (x i) (y i)) ∧ IsMax (x i) (y i) (vmax (x i) (y i)) := by
    rcases flt_or hx hy with ⟨h, h'⟩ | ⟨h, h'⟩ | ⟨h, h', e⟩
    · simp only [vmin, vmax, hx, hy, h, h', Bool.or_self, Bool.false_eq_true, if_false, if_true]
      exact ⟨⟨Or.inl (Same.refl _), fle_refl hx, fle_of_flt h⟩, ⟨Or.inr (Same.refl _), fle_of_flt h, fle_refl hy⟩⟩
    · simp only [vmin, vmax, hx, hy, h, h', Bool.or_self, Bool.false_eq_true, if_false, if_true]
      exact ⟨⟨Or.inr (Same.refl _), fle_of_flt h', fle_refl hy⟩, ⟨Or.inl (Same.refl _), fle_refl hx, fle_of_flt h'⟩⟩
    · simp only [vmin, vmax, hx, hy, h, h', Bool.or_self, Bool.false_eq_true, if_false]
      obtain ⟨s, s'⟩ := or_self_key e
      refine ⟨⟨Or.inl s, ?_, ?_⟩, ⟨Or.inl s', ?_, ?_⟩⟩
      · rw [fle_congr s (Same.refl _)]; exact fle_refl hx
      · rw [fle_congr s (Same.refl _)]; exact fle_of_key hx hy (by omega)
      · rw [fle_congr (Same.refl _) s']; exact fle_refl hx
      · rw [fle_congr (Same.refl _) s']; exact fle_of_key hy hx (by omega)
  cases b with
  | avx f => exact ps
  | sse f => exact ps
  | neon8 => exact vv
  | neon7 => exact vv
  | none =>
    have e : i = 0 := Subsingleton.elim _ _
    subst e
    refine ⟨?_, ?_⟩
    · obtain ⟨h, h1, h2⟩ := L.fminf _ _ hx hy
      refine ⟨?_, h1, h2⟩
      rcases h with h | h
      · exact Or.inl (h ▸ Same.refl _)
      · exact Or.inr (h ▸ Same.refl _)
    · obtain ⟨h, h1, h2⟩ := L.fmaxf _ _ hx hy
      refine ⟨?_, h1, h2⟩
      rcases h with h | h
      · exact Or.inl (h ▸ Same.refl _)
      · exact Or.inr (h ▸ Same.refl _)

/-! ### whole computations -/

/-- comparisons -/
inductive Cmp | gt | gte | lt | lte | eq | neq

/-- the function of a comparison -/
def Cmp.fn : Cmp → (b : Build) → Vec b → Vec b → Vec b
  | .gt => gtF
  | .gte => gteF
  | .lt => ltF
  | .lte => lteF
  | .eq => eqF
  | .neq => neqF

/-- A computation on signals: numbers, and truth values, which only the three masking functions may consume.
`inp n` is signal `n`. -/
inductive E : Bool → Type
  | inp (n : Nat) : E false
  | lit (w : W) : E false
  | abs (e : E false) : E false
  | neg (e : E false) : E false
  | cos (e : E false) : E false
  | exp (e : E false) : E false
  | floor (e : E false) : E false
  | ceil (e : E false) : E false
  | sqrt (e : E false) : E false
  | add (e f : E false) : E false
  | sub (e f : E false) : E false
  | mul (e f : E false) : E false
  | div (e f : E false) : E false
  | min (e f : E false) : E false
  | max (e f : E false) : E false
  /-- `__and~f`: the number where the truth value holds, else zero -/
  | keep (m : E true) (e : E false) : E false
  /-- `__andnot~f`: zero where it holds, else the number -/
  | drop (m : E true) (e : E false) : E false
  /-- `__or~f` of the two: a choice -/
  | sel (m : E true) (e f : E false) : E false
  | cmp (c : Cmp) (e f : E false) : E true
  /-- `__and~f` of truth values -/
  | both (m n : E true) : E true

/-- The computation in a build, each operator by the function of `HvMath.h` it is compiled to
(generators/ir2c/SignalMath.py:31-89). -/
def eval (hw : Hw) (b : Build) (inp : Nat → Vec b) : {k : Bool} → E k → Option (Vec b)
  | _, .inp n => some (inp n)
  | _, .lit w => some (fun _ => w)
  | _, .abs e => (eval hw b inp e).map (absF b)
  | _, .neg e => (eval hw b inp e).map (negF hw b)
  | _, .cos e => (eval hw b inp e).map (cosF hw b)
  | _, .exp e => (eval hw b inp e).map (expF hw b)
  | _, .floor e => (eval hw b inp e).map (floorF hw b)
  | _, .ceil e => (eval hw b inp e).map (ceilF hw b)
  | _, .sqrt e => (eval hw b inp e).map (sqrtF hw b)
  | _, .add e f => (eval hw b inp e).bind fun x => (eval hw b inp f).map (addF hw b x)
  | _, .sub e f => (eval hw b inp e).bind fun x => (eval hw b inp f).map (subF hw b x)
  | _, .mul e f => (eval hw b inp e).bind fun x => (eval hw b inp f).map (mulF hw b x)
  | _, .div e f => (eval hw b inp e).bind fun x => (eval hw b inp f).map (divF hw b x)
  | _, .min e f => (eval hw b inp e).bind fun x => (eval hw b inp f).map (minF hw b x)
  | _, .max e f => (eval hw b inp e).bind fun x => (eval hw b inp f).map (maxF hw b x)
  | _, .keep m e => (eval hw b inp m).bind fun x => (eval hw b inp e).bind (andF b x)
  | _, .drop m e => (eval hw b inp m).bind fun x => (eval hw b inp e).map (andnotF b x)
  | _, .sel m e f => (eval hw b inp m).bind fun x => (eval hw b inp e).bind fun y => (eval hw b inp f).bind fun z =>
      (andF b x y).bind fun u => orF b u (andnotF b x z)
  | _, .cmp c e f => (eval hw b inp e).bind fun x => (eval hw b inp f).map (c.fn b x)
  | _, .both m n => (eval hw b inp m).bind fun x => (eval hw b inp n).bind (andF b x)

/-- the scalar build's value of a computation at a sample is a number -/
def NotNaN (hw : Hw) (inp : Nat → Vec .none) (e : E false) : Prop :=
  ∀ v, eval hw .none inp e = some v → isNaN (v 0) = false

/-- What is asked of a computation in a build, at a sample: no division or square root where they are estimates;
and least, greatest and "not equal" applied to numbers only. -/
def Clean (hw : Hw) (b : Build) (inp : Nat → Vec .none) : {k : Bool} → E k → Prop
  | _, .inp _ => True
  | _, .lit _ => True
  | _, .abs e => Clean hw b inp e
  | _, .neg e => Clean hw b inp e
  | _, .cos e => Clean hw b inp e
  | _, .exp e => Clean hw b inp e
  | _, .floor e => Clean hw b inp e
  | _, .ceil e => Clean hw b inp e
  | _, .sqrt e => b.exactDiv = true ∧ Clean hw b inp e
  | _, .add e f => Clean hw b inp e ∧ Clean hw b inp f
  | _, .sub e f => Clean hw b inp e ∧ Clean hw b inp f
  | _, .mul e f => Clean hw b inp e ∧ Clean hw b inp f
  | _, .div e f => b.exactDiv = true ∧ Clean hw b inp e ∧ Clean hw b inp f
  | _, .min e f => NotNaN hw inp e ∧ NotNaN hw inp f ∧ Clean hw b inp e ∧ Clean hw b inp f
  | _, .max e f => NotNaN hw inp e ∧ NotNaN hw inp f ∧ Clean hw b inp e ∧ Clean hw b inp f
  | _, .keep m e => Clean hw b inp m ∧ Clean hw b inp e
  | _, .drop m e => Clean hw b inp m ∧ Clean hw b inp e
  | _, .sel m e f => Clean hw b inp m ∧ Clean hw b inp e ∧ Clean hw b inp f
  | _, .cmp .neq e f => NotNaN hw inp e ∧ NotNaN hw inp f ∧ Clean hw b inp e ∧ Clean hw b inp f
  | _, .cmp _ e f => Clean hw b inp e ∧ Clean hw b inp f
  | _, .both m n => Clean hw b inp m ∧ Clean hw b inp n

/-- how the value `v` of a lane stands for the scalar build's value `s`: the same number; a truth value is all ones
against `1.0f` -/
def Rel (b : Build) : Bool → W → W → Prop
  | false, v, s => Same v s
  | true, v, s => ∃ p : Bool, v = (if b = .none then oneOf p else maskOf p) ∧ s = oneOf p

/-! masks -/

theorem feq_oneOf (p : Bool) : feq (oneOf p) 0 = !p := by cases p <;> decide

theorem and_mask (p : Bool) (v : W) : v &&& maskOf p = if p then v else 0 := by
  cases p
  · exact BitVec.and_zero
  · exact BitVec.and_allOnes

theorem same_zero {v : W} (h : isZero v = true) : Same v 0 := Or.inr (Or.inl ⟨h, by decide⟩)

theorem andNone_one (p : Bool) (s : W) : ∃ r, andNone (oneOf p) s = some r ∧ Same (if p then s else 0) r := by
  unfold andNone
  rw [feq_oneOf, feq_zero]
  cases p
  · exact ⟨0, rfl, Same.refl _⟩
  · cases hz : isZero s with
    | true => exact ⟨0, rfl, same_zero hz⟩
    | false =>
      refine ⟨s, ?_, Same.refl _⟩
      have : feq (oneOf true) one = true := by decide
      simp [this]

theorem orNone_zero_right (s : W) : ∃ r, orNone s 0 = some r ∧ Same s r := by
  have h0 : isZero (0 : W) = true := by decide
  unfold orNone
  simp only [feq_zero, h0, Bool.and_true]
  cases hz : isZero s with
  | true => exact ⟨0, rfl, same_zero hz⟩
  | false => exact ⟨s, rfl, Same.refl _⟩

theorem orNone_zero_left (s : W) : ∃ r, orNone 0 s = some r ∧ Same s r := by
  have h0 : isZero (0 : W) = true := by decide
  unfold orNone
  simp only [feq_zero, h0, Bool.true_and]
  cases hz : isZero s with
  | true => exact ⟨0, rfl, same_zero hz⟩
  | false => exact ⟨s, rfl, Same.refl _⟩

theorem neg_congr {a a' : W} (h : Same a a') : Same (a ^^^ signBit) (a' ^^^ signBit) := by
  have m : ∀ w : W, mag (w ^^^ signBit) = mag w := fun w => by
    rw [mag_eq, mag_eq, BitVec.toNat_xor, Nat.xor_mod_two_pow]
    exact Nat.xor_zero _
  rcases h with h | ⟨h, h'⟩ | ⟨h, h'⟩
  · exact Or.inl (by rw [h])
  · exact Or.inr (Or.inl ⟨by simpa [isZero, m] using h, by simpa [isZero, m] using h'⟩)
  · exact Or.inr (Or.inr ⟨by simpa [isNaN, m] using h, by simpa [isNaN, m] using h'⟩)

theorem fabs_congr {a a' : W} (h : Same a a') : Same (fabs a) (fabs a') := by
  have m : ∀ w : W, mag (fabs w) = mag w := fun w => by
    have : w &&& 0x7fffffff#32 &&& 0x7fffffff#32 = w &&& 0x7fffffff#32 := by
      rw [BitVec.and_assoc, BitVec.and_self]
    simp [mag, fabs, this]
  rcases h with h | ⟨h, h'⟩ | ⟨h, h'⟩
  · exact Or.inl (by rw [h])
  · exact Or.inr (Or.inl ⟨by simpa [isZero, m] using h, by simpa [isZero, m] using h'⟩)
  · exact Or.inr (Or.inr ⟨by simpa [isNaN, m] using h, by simpa [isNaN, m] using h'⟩)

/-- the truth values `p` as the build has them -/
def Truth (b : Build) (x : Vec b) (p : Fin b.lanes → Bool) : Prop :=
  ∀ i, x i = if b = .none then oneOf (p i) else maskOf (p i)

theorem andF_ok (b : Build) (x y : Vec b) (p : Fin b.lanes → Bool) (hx : Truth b x p) :
    ∃ u, andF b x y = some u ∧ ∀ i, (p i = false → u i = 0) ∧ (p i = true → Same (y i) (u i)) := by
  have vec (i : Fin b.lanes) (u : W) (h : u = y i &&& x i) (hb : b ≠ .none) :
      (p i = false → u = 0) ∧ (p i = true → Same (y i) u) := by
    rw [h, hx i, if_neg hb, and_mask]
    constructor <;> intro hp <;> rw [hp]
    · rfl
    · exact Same.refl _
  cases b with
  | avx f => exact ⟨_, rfl, fun i => vec i _ rfl (by simp)⟩
  | sse f => exact ⟨_, rfl, fun i => vec i _ rfl (by simp)⟩
  | neon8 => exact ⟨_, rfl, fun i => vec i _ rfl (by simp)⟩
  | neon7 => exact ⟨_, rfl, fun i => vec i _ rfl (by simp)⟩
  | none =>
    have h0 := hx 0
    rw [if_pos rfl] at h0
    obtain ⟨r, hr, hs⟩ := andNone_one (p 0) (y 0)
    refine ⟨fun _ => r, ?_, fun i => ?_⟩
    · show (andNone (x 0) (y 0)).map _ = _
      rw [h0, hr]; rfl
    · have e : i = 0 := Subsingleton.elim _ _
      subst e
      constructor <;> intro hp <;> rw [hp] at hs
      · rw [hp] at hr
        have : andNone (oneOf false) (y 0) = some 0 := by
          unfold andNone; rw [feq_oneOf]; rfl
        rw [this] at hr
        exact (Option.some.inj hr).symm
      · exact hs

theorem andnotF_ok (b : Build) (x y : Vec b) (p : Fin b.lanes → Bool) (hx : Truth b x p) (i : Fin b.lanes) :
    andnotF b x y i = if p i then 0 else y i := by
  have h := hx i
  have bic_mask (p : Bool) (v : W) : bic v (maskOf p) = if !p then v else 0 := by
    rw [← andnot_mask, bic, andnot, BitVec.and_comm]
  cases b with
  | avx f =>
    rw [if_neg (by simp)] at h
    show andnot (x i) (y i) = _
    rw [h, andnot_mask]; cases p i <;> rfl
  | sse f =>
    rw [if_neg (by simp)] at h
    show andnot (x i) (y i) = _
    rw [h, andnot_mask]; cases p i <;> rfl
  | neon8 =>
    rw [if_neg (by simp)] at h
    show bic (y i) (x i) = _
    rw [h, bic_mask]; cases p i <;> rfl
  | neon7 =>
    rw [if_neg (by simp)] at h
    show bic (y i) (x i) = _
    rw [h, bic_mask]; cases p i <;> rfl
  | none =>
    rw [if_pos rfl] at h
    show (if feq (x i) 0 then y i else 0) = _
    rw [h, feq_oneOf]; cases p i <;> rfl

theorem orF_ok (b : Build) (u w : Vec b) (h : ∀ i, u i = 0 ∨ w i = 0) :
    ∃ r, orF b u w = some r ∧ ∀ i, (w i = 0 → Same (u i) (r i)) ∧ (u i = 0 → Same (w i) (r i)) := by
  have vec (i : Fin b.lanes) (r : W) (hr : r = w i ||| u i) :
      (w i = 0 → Same (u i) r) ∧ (u i = 0 → Same (w i) r) := by
    subst hr
    constructor <;> intro hz <;> rw [hz]
    · exact Or.inl BitVec.zero_or.symm
    · exact Or.inl BitVec.or_zero.symm
  cases b with
  | avx f => exact ⟨_, rfl, fun i => vec i _ rfl⟩
  | sse f => exact ⟨_, rfl, fun i => vec i _ rfl⟩
  | neon8 => exact ⟨_, rfl, fun i => vec i _ rfl⟩
  | neon7 => exact ⟨_, rfl, fun i => vec i _ rfl⟩
  | none =>
    rcases h 0 with h0 | h0
    · obtain ⟨r, hr, hs⟩ := orNone_zero_left (w 0)
      refine ⟨fun _ => r, ?_, fun i => ?_⟩
      · show (orNone (u 0) (w 0)).map _ = _
        rw [h0, hr]; rfl
      · have e : i = 0 := Subsingleton.elim _ _
        subst e
        exact ⟨fun hw => by rw [h0]; rw [hw] at hs; exact hs, fun _ => hs⟩
    · obtain ⟨r, hr, hs⟩ := orNone_zero_right (u 0)
      refine ⟨fun _ => r, ?_, fun i => ?_⟩
      · show (orNone (u 0) (w 0)).map _ = _
        rw [h0, hr]; rfl
      · have e : i = 0 := Subsingleton.elim _ _
        subst e
        exact ⟨fun _ => hs, fun hu => by rw [h0]; rw [hu] at hs; exact hs⟩

/-! comparisons -/

/-- the truth of a comparison of two numbers -/
def Cmp.holds : Cmp → W → W → Bool
  | .gt, a, b => flt b a
  | .gte, a, b => fle b a
  | .lt, a, b => flt a b
  | .lte, a, b => fle a b
  | .eq, a, b => feq a b
  | .neq, a, b => !feq a b

theorem Cmp.holds_congr (c : Cmp) {a a' b b' : W} (ha : Same a a') (hb : Same b b') : c.holds a b = c.holds a' b' := by
  cases c
  · exact flt_congr hb ha
  · exact fle_congr hb ha
  · exact flt_congr ha hb
  · exact fle_congr ha hb
  · exact feq_congr ha hb
  · exact congrArg (fun p => !p) (feq_congr ha hb)

/-- what a comparison function writes: in a vector build all ones where it holds -/
theorem Cmp.fn_ok (c : Cmp) (b : Build) (x y : Vec b) (i : Fin b.lanes)
    (h : match c with | .neq => isNaN (x i) = false ∧ isNaN (y i) = false | _ => True) :
    c.fn b x y i = if b = .none then oneOf (c.holds (x i) (y i)) else maskOf (c.holds (x i) (y i)) := by
  have nm (p : Bool) : ~~~(maskOf p) = maskOf (!p) := by cases p <;> decide
  cases c <;> cases b <;> first
    | rfl
    | (simp only at h
       show maskOf (!isNaN (x i) && !isNaN (y i) && !feq (x i) (y i)) = maskOf (!feq (x i) (y i))
       rw [h.1, h.2]; rfl)
    | exact nm _

/-! the induction -/

/-- the claim for one computation -/
def Agrees (hw : Hw) (b : Build) (inp : Nat → Vec b) {k : Bool} (e : E k) : Prop :=
  ∃ v, eval hw b inp e = some v ∧ ∀ i : Fin b.lanes,
    ∃ s, eval hw .none (fun n => lane (inp n) i) e = some s ∧ Rel b k (v i) (s 0)

theorem lane_eta (s : Vec .none) : s = fun _ => s 0 := funext fun i => congrArg s (Subsingleton.elim i 0)

/-- one operand -/
theorem agrees_un {hw : Hw} {b : Build} {inp : Nat → Vec b} {e : E false} {e' : E false}
    (f : (b : Build) → Vec b → Vec b)
    (he : ∀ b' (inp' : Nat → Vec b'), eval hw b' inp' e' = (eval hw b' inp' e).map (f b'))
    (hf : ∀ (x : Vec b) (s : Vec .none) (i : Fin b.lanes), Same (x i) (s 0) → Same (f b x i) (f .none s 0))
    (h : Agrees hw b inp e) : Agrees hw b inp e' := by
  obtain ⟨v, hv, hi⟩ := h
  refine ⟨f b v, by rw [he, hv]; rfl, fun i => ?_⟩
  obtain ⟨s, hs, hr⟩ := hi i
  exact ⟨f .none s, by rw [he, hs]; rfl, hf v s i hr⟩

/-- two operands -/
theorem agrees_bin {hw : Hw} {b : Build} {inp : Nat → Vec b} {e f : E false} {k : Bool} {e' : E k}
    (g : (b : Build) → Vec b → Vec b → Vec b)
    (he : ∀ b' (inp' : Nat → Vec b'),
      eval hw b' inp' e' = (eval hw b' inp' e).bind fun x => (eval hw b' inp' f).map (g b' x))
    (hg : ∀ (x y : Vec b) (s t : Vec .none) (i : Fin b.lanes), Same (x i) (s 0) → Same (y i) (t 0) →
      eval hw .none (fun n => lane (inp n) i) e = some s → eval hw .none (fun n => lane (inp n) i) f = some t →
      Rel b k (g b x y i) (g .none s t 0))
    (h : Agrees hw b inp e) (h' : Agrees hw b inp f) : Agrees hw b inp e' := by
  obtain ⟨v, hv, hi⟩ := h
  obtain ⟨w, hw', hi'⟩ := h'
  refine ⟨g b v w, by rw [he, hv, hw']; rfl, fun i => ?_⟩
  obtain ⟨s, hs, hr⟩ := hi i
  obtain ⟨t, ht, hr'⟩ := hi' i
  exact ⟨g .none s t, by rw [he, hs, ht]; rfl, hg v w s t i hr hr' hs ht⟩

/-- the truth values of an agreeing computation -/
theorem truth_of_agrees {hw : Hw} {b : Build} {inp : Nat → Vec b} {m : E true} (h : Agrees hw b inp m) :
    ∃ (x : Vec b) (p : Fin b.lanes → Bool), eval hw b inp m = some x ∧ Truth b x p ∧
      ∀ i, ∃ s, eval hw .none (fun n => lane (inp n) i) m = some s ∧ Truth .none s (fun _ => p i) := by
  obtain ⟨x, hx, hi⟩ := h
  have hp : ∀ i, ∃ p : Bool, x i = (if b = .none then oneOf p else maskOf p) ∧
      ∃ s, eval hw .none (fun n => lane (inp n) i) m = some s ∧ Truth .none s (fun _ => p) := by
    intro i
    obtain ⟨s, hs, p, h1, h2⟩ := hi i
    refine ⟨p, h1, s, hs, fun j => ?_⟩
    have e : j = 0 := Subsingleton.elim _ _
    subst e
    rw [h2]; rfl
  refine ⟨x, fun i => (hp i).choose, hx, fun i => (hp i).choose_spec.1, fun i => (hp i).choose_spec.2⟩

/-- **Every computation is the same in every build**: whichever build the code is compiled as, no assertion fails, and
at every sample the result is the scalar build's (for a truth value: all ones for `1.0f`). -/
theorem builds_agree (hw : Hw) (L : Lawful hw) (b : Build) (inp : Nat → Vec b) {k : Bool} (e : E k)
    (hc : ∀ i, Clean hw b (fun n => lane (inp n) i) e) : Agrees hw b inp e := by
  induction e with
  | inp n => exact ⟨inp n, rfl, fun i => ⟨lane (inp n) i, rfl, Same.refl _⟩⟩
  | lit w => exact ⟨fun _ => w, rfl, fun i => ⟨fun _ => w, rfl, Same.refl _⟩⟩
  | abs e ih =>
    refine agrees_un absF (fun _ _ => rfl) (fun x s i h => ?_) (ih hc)
    rw [abs_exact]; exact fabs_congr h
  | neg e ih =>
    refine agrees_un (negF hw) (fun _ _ => rfl) (fun x s i h => ?_) (ih hc)
    have hs : Same (s 0 ^^^ signBit) (negF hw .none s 0) := (L.mul_negOne (s 0)).symm
    cases b with
    | avx f => exact (neg_congr h).trans hs
    | sse f => exact (neg_congr h).trans hs
    | neon8 => exact (neg_congr h).trans hs
    | neon7 => exact (neg_congr h).trans hs
    | none => exact L.mul _ _ _ _ h (Same.refl _)
  | cos e ih =>
    refine agrees_un (cosF hw) (fun _ _ => rfl) (fun x s i h => ?_) (ih hc)
    rw [(unary_exact hw b x i).1]; exact L.cos _ _ h
  | exp e ih =>
    refine agrees_un (expF hw) (fun _ _ => rfl) (fun x s i h => ?_) (ih hc)
    rw [(unary_exact hw b x i).2.1]; exact L.exp _ _ h
  | floor e ih =>
    refine agrees_un (floorF hw) (fun _ _ => rfl) (fun x s i h => ?_) (ih hc)
    rw [(unary_exact hw b x i).2.2.1]; exact L.floor _ _ h
  | ceil e ih =>
    refine agrees_un (ceilF hw) (fun _ _ => rfl) (fun x s i h => ?_) (ih hc)
    rw [(unary_exact hw b x i).2.2.2.1]; exact L.ceil _ _ h
  | sqrt e ih =>
    refine agrees_un (sqrtF hw) (fun _ _ => rfl) (fun x s i h => ?_) (ih fun i => (hc i).2)
    rw [((div_exact hw b x x i).1 (hc i).1).2]; exact L.sqrt _ _ h
  | add e f ihe ihf =>
    refine agrees_bin (addF hw) (fun _ _ => rfl) (fun x y s t i h h' _ _ => ?_) (ihe fun i => (hc i).1)
      (ihf fun i => (hc i).2)
    rw [(binary_exact hw b x y i).1]; exact L.add _ _ _ _ h h'
  | sub e f ihe ihf =>
    refine agrees_bin (subF hw) (fun _ _ => rfl) (fun x y s t i h h' _ _ => ?_) (ihe fun i => (hc i).1)
      (ihf fun i => (hc i).2)
    rw [(binary_exact hw b x y i).2.1]; exact L.sub _ _ _ _ h h'
  | mul e f ihe ihf =>
    refine agrees_bin (mulF hw) (fun _ _ => rfl) (fun x y s t i h h' _ _ => ?_) (ihe fun i => (hc i).1)
      (ihf fun i => (hc i).2)
    rw [(binary_exact hw b x y i).2.2.1]; exact L.mul _ _ _ _ h h'
  | div e f ihe ihf =>
    refine agrees_bin (divF hw) (fun _ _ => rfl) (fun x y s t i h h' _ _ => ?_) (ihe fun i => (hc i).2.1)
      (ihf fun i => (hc i).2.2)
    rw [((div_exact hw b x y i).1 (hc i).1).1]
    show Same (if !feq (y i) 0 then hw.div (x i) (y i) else 0) (if !feq (t 0) 0 then hw.div (s 0) (t 0) else 0)
    rw [feq_zero, feq_zero, h'.zero]
    cases hz : isZero (t 0) with
    | true => exact Same.refl _
    | false => exact L.div _ _ _ _ h h' (h'.zero.trans hz)
  | min e f ihe ihf =>
    refine agrees_bin (minF hw) (fun _ _ => rfl) (fun x y s t i h h' hs ht => ?_) (ihe fun i => (hc i).2.2.1)
      (ihf fun i => (hc i).2.2.2)
    have ns := (hc i).1 s hs
    have nt := (hc i).2.1 t ht
    exact isMin_unique (isMin_congr h h' (minmax_ok hw L b x y i (h.nan.trans ns) (h'.nan.trans nt)).1)
      (minmax_ok hw L .none s t 0 ns nt).1
  | max e f ihe ihf =>
    refine agrees_bin (maxF hw) (fun _ _ => rfl) (fun x y s t i h h' hs ht => ?_) (ihe fun i => (hc i).2.2.1)
      (ihf fun i => (hc i).2.2.2)
    have ns := (hc i).1 s hs
    have nt := (hc i).2.1 t ht
    exact isMax_unique (isMax_congr h h' (minmax_ok hw L b x y i (h.nan.trans ns) (h'.nan.trans nt)).2)
      (minmax_ok hw L .none s t 0 ns nt).2
  | keep m e ihm ihe =>
    obtain ⟨x, p, hx, tx, hm⟩ := truth_of_agrees (ihm fun i => (hc i).1)
    obtain ⟨y, hy, hi⟩ := ihe fun i => (hc i).2
    obtain ⟨u, hu, hu'⟩ := andF_ok b x y p tx
    refine ⟨u, by simp only [eval, hx, hy, Option.bind_some, hu], fun i => ?_⟩
    obtain ⟨sm, hsm, tm⟩ := hm i
    obtain ⟨s, hs, hr⟩ := hi i
    obtain ⟨w, hw', hw''⟩ := andF_ok .none sm s (fun _ => p i) tm
    refine ⟨w, by simp only [eval, hsm, hs, Option.bind_some, hw'], ?_⟩
    show Same (u i) (w 0)
    cases hp : p i with
    | false => rw [(hu' i).1 hp, (hw'' 0).1 hp]; exact Same.refl _
    | true => exact ((hu' i).2 hp).symm.trans (Same.trans hr ((hw'' 0).2 hp))
  | drop m e ihm ihe =>
    obtain ⟨x, p, hx, tx, hm⟩ := truth_of_agrees (ihm fun i => (hc i).1)
    obtain ⟨y, hy, hi⟩ := ihe fun i => (hc i).2
    refine ⟨andnotF b x y, by simp only [eval, hx, hy, Option.bind_some, Option.map_some], fun i => ?_⟩
    obtain ⟨sm, hsm, tm⟩ := hm i
    obtain ⟨s, hs, hr⟩ := hi i
    refine ⟨andnotF .none sm s, by simp only [eval, hsm, hs, Option.bind_some, Option.map_some], ?_⟩
    show Same _ _
    rw [andnotF_ok b x y p tx i, andnotF_ok .none sm s (fun _ => p i) tm 0]
    cases p i
    · exact hr
    · exact Same.refl _
  | sel m e f ihm ihe ihf =>
    obtain ⟨x, p, hx, tx, hm⟩ := truth_of_agrees (ihm fun i => (hc i).1)
    obtain ⟨y, hy, hi⟩ := ihe fun i => (hc i).2.1
    obtain ⟨z, hz, hi'⟩ := ihf fun i => (hc i).2.2
    obtain ⟨u, hu, hu'⟩ := andF_ok b x y p tx
    have hn := andnotF_ok b x z p tx
    obtain ⟨r, hr, hr'⟩ := orF_ok b u (andnotF b x z) (fun i => by
      cases hp : p i with
      | false => exact Or.inl ((hu' i).1 hp)
      | true => right; rw [hn i, hp]; rfl)
    refine ⟨r, by simp only [eval, hx, hy, hz, Option.bind_some, hu, hr], fun i => ?_⟩
    obtain ⟨sm, hsm, tm⟩ := hm i
    obtain ⟨s, hs, hrs⟩ := hi i
    obtain ⟨t, ht, hrt⟩ := hi' i
    obtain ⟨w, hw', hw''⟩ := andF_ok .none sm s (fun _ => p i) tm
    have hn' := andnotF_ok .none sm t (fun _ => p i) tm
    obtain ⟨q, hq, hq'⟩ := orF_ok .none w (andnotF .none sm t) (fun j => by
      cases hp : p i with
      | false => exact Or.inl ((hw'' j).1 hp)
      | true => right; rw [hn' j, hp]; rfl)
    refine ⟨q, by simp only [eval, hsm, hs, ht, Option.bind_some, hw', hq], ?_⟩
    show Same (r i) (q 0)
    cases hp : p i with
    | false =>
      have e1 : andnotF b x z i = z i := by rw [hn i, hp]; rfl
      have e2 : andnotF .none sm t 0 = t 0 := by rw [hn' 0, hp]; rfl
      have a1 := (hr' i).2 ((hu' i).1 hp)
      have a2 := (hq' 0).2 ((hw'' 0).1 hp)
      rw [e1] at a1; rw [e2] at a2
      exact a1.symm.trans (Same.trans hrt a2)
    | true =>
      have e1 : andnotF b x z i = 0 := by rw [hn i, hp]; rfl
      have e2 : andnotF .none sm t 0 = 0 := by rw [hn' 0, hp]; rfl
      have a1 := ((hu' i).2 hp).trans ((hr' i).1 e1)
      have a2 := ((hw'' 0).2 hp).trans ((hq' 0).1 e2)
      exact a1.symm.trans (Same.trans hrs a2)
  | cmp c e f ihe ihf =>
    have hh : ∀ i, Clean hw b (fun n => lane (inp n) i) e ∧ Clean hw b (fun n => lane (inp n) i) f ∧
        (match c with
          | .neq => NotNaN hw (fun n => lane (inp n) i) e ∧ NotNaN hw (fun n => lane (inp n) i) f
          | _ => True) := by
      intro i
      have := hc i
      cases c
      · exact ⟨this.1, this.2, trivial⟩
      · exact ⟨this.1, this.2, trivial⟩
      · exact ⟨this.1, this.2, trivial⟩
      · exact ⟨this.1, this.2, trivial⟩
      · exact ⟨this.1, this.2, trivial⟩
      · exact ⟨this.2.2.1, this.2.2.2, this.1, this.2.1⟩
    refine agrees_bin c.fn (fun _ _ => rfl) (fun x y s t i h h' hs ht => ?_) (ihe fun i => (hh i).1)
      (ihf fun i => (hh i).2.1)
    refine ⟨c.holds (s 0) (t 0), ?_, ?_⟩
    · rw [Cmp.fn_ok c b x y i ?_, c.holds_congr h h']
      cases c
      · trivial
      · trivial
      · trivial
      · trivial
      · trivial
      · exact ⟨h.nan.trans ((hh i).2.2.1 s hs), h'.nan.trans ((hh i).2.2.2 t ht)⟩
    · rw [Cmp.fn_ok c .none s t 0 ?_, if_pos rfl]
      cases c
      · trivial
      · trivial
      · trivial
      · trivial
      · trivial
      · exact ⟨(hh i).2.2.1 s hs, (hh i).2.2.2 t ht⟩
  | both m n ihm ihn =>
    obtain ⟨x, p, hx, tx, hm⟩ := truth_of_agrees (ihm fun i => (hc i).1)
    obtain ⟨y, q, hy, ty, hn⟩ := truth_of_agrees (ihn fun i => (hc i).2)
    have key (b : Build) (x y : Vec b) (p q : Fin b.lanes → Bool) (tx : Truth b x p) (ty : Truth b y q) :
        ∃ u, andF b x y = some u ∧ ∀ i, u i = if b = .none then oneOf (p i && q i) else maskOf (p i && q i) := by
      have vec (i : Fin b.lanes) (u : W) (h : u = y i &&& x i) (hb : b ≠ .none) :
          u = if b = .none then oneOf (p i && q i) else maskOf (p i && q i) := by
        rw [h, tx i, ty i, if_neg hb, if_neg hb, if_neg hb]
        cases p i <;> cases q i <;> decide
      cases b with
      | avx f => exact ⟨_, rfl, fun i => vec i _ rfl (by simp)⟩
      | sse f => exact ⟨_, rfl, fun i => vec i _ rfl (by simp)⟩
      | neon8 => exact ⟨_, rfl, fun i => vec i _ rfl (by simp)⟩
      | neon7 => exact ⟨_, rfl, fun i => vec i _ rfl (by simp)⟩
      | none =>
        refine ⟨fun i => oneOf (p i && q i), ?_, fun i => by rw [if_pos rfl]⟩
        show (andNone (x 0) (y 0)).map _ = _
        rw [tx 0, ty 0, if_pos rfl, if_pos rfl]
        have e : andNone (oneOf (p 0)) (oneOf (q 0)) = some (oneOf (p 0 && q 0)) := by
          cases p 0 <;> cases q 0 <;> decide
        rw [e]
        exact congrArg some (funext fun i => by rw [Subsingleton.elim i 0])
    obtain ⟨u, hu, hu'⟩ := key b x y p q tx ty
    refine ⟨u, by simp only [eval, hx, hy, Option.bind_some, hu], fun i => ?_⟩
    obtain ⟨sm, hsm, tm⟩ := hm i
    obtain ⟨sn, hsn, tn⟩ := hn i
    obtain ⟨w, hw', hw''⟩ := key .none sm sn _ _ tm tn
    exact ⟨w, by simp only [eval, hsm, hsn, Option.bind_some, hw'], p i && q i, hu' i, by rw [hw'' 0, if_pos rfl]⟩

/-! ### signals -/

theorem Build.lanes_pos (b : Build) : 0 < b.lanes := by
  cases b <;> simp [Build.lanes]

/-- sample `t` of a computation on the signals `sig`, in a build that computes its vectors one after another -/
def sampleAt (hw : Hw) (b : Build) (sig : Nat → Nat → W) {k : Bool} (e : E k) (t : Nat) : Option W :=
  (eval hw b (fun n => Verif.Simd.block b.lanes (sig n) (t / b.lanes)) e).map
    (fun v => v ⟨t % b.lanes, Nat.mod_lt _ b.lanes_pos⟩)

/-- **At every time the vector builds give the sample the scalar build gives.** -/
theorem signals_agree (hw : Hw) (L : Lawful hw) (b : Build) (sig : Nat → Nat → W) (e : E false) (t : Nat)
    (hc : ∀ u, u / b.lanes = t / b.lanes → Clean hw b (fun n _ => sig n u) e) :
    ∃ v s, sampleAt hw b sig e t = some v ∧ sampleAt hw .none sig e t = some s ∧ Same v s := by
  have hpos := b.lanes_pos
  have hl : ∀ i : Fin b.lanes, (fun n => lane (Verif.Simd.block b.lanes (sig n) (t / b.lanes)) i)
      = fun n _ => sig n (t / b.lanes * b.lanes + i) := fun i => rfl
  obtain ⟨v, hv, hi⟩ := builds_agree hw L b (fun n => Verif.Simd.block b.lanes (sig n) (t / b.lanes)) e (fun i => by
    rw [hl i]
    refine hc _ ?_
    rw [Nat.add_comm, Nat.add_mul_div_right _ _ hpos, Nat.div_eq_of_lt i.isLt, Nat.zero_add])
  obtain ⟨s, hs, hr⟩ := hi ⟨t % b.lanes, Nat.mod_lt _ hpos⟩
  refine ⟨_, s 0, by rw [sampleAt, hv]; rfl, ?_, hr⟩
  rw [hl] at hs
  have ht : t / b.lanes * b.lanes + t % b.lanes = t := by rw [Nat.mul_comm]; exact Nat.div_add_mod t b.lanes
  simp only [ht] at hs
  have : (fun n => Verif.Simd.block Build.none.lanes (sig n) (t / Build.none.lanes)) = fun n _ => sig n t := by
    funext n j
    show sig n (t / 1 * 1 + j.val) = sig n t
    have : j.val = 0 := by have := j.isLt; simp only [Build.lanes] at this; omega
    rw [this, Nat.div_one, Nat.mul_one, Nat.add_zero]
  rw [sampleAt, this, hs]
  exact congrArg some (congrArg s (Subsingleton.elim _ _))

/-- libs/pd/wrap~.pd: `x - floor x` -/
def wrapObj : E false := .sub (.inp 0) (.floor (.inp 0))
/-- libs/pd/clip~.pd: not above inlet 2, then not below inlet 1 -/
def clipObj : E false := .max (.min (.inp 0) (.inp 2)) (.inp 1)
/-- libs/pd/sqrt~.pd: the root where the signal is positive, else zero -/
def sqrtObj : E false := .keep (.cmp .gt (.inp 0) (.lit 0)) (.sqrt (.inp 0))

/-- `[wrap~]` is the same in all builds, whatever the signal -/
theorem wrap_agrees (hw : Hw) (L : Lawful hw) (b : Build) (sig : Nat → Nat → W) (t : Nat) :
    ∃ v s, sampleAt hw b sig wrapObj t = some v ∧ sampleAt hw .none sig wrapObj t = some s ∧ Same v s :=
  signals_agree hw L b sig wrapObj t fun _ _ => ⟨trivial, trivial⟩

/-- `[sqrt~]` is the same in the Intel builds as in the scalar one, whatever the signal -/
theorem sqrt_agrees (hw : Hw) (L : Lawful hw) (b : Build) (hb : b.exactDiv = true) (sig : Nat → Nat → W) (t : Nat) :
    ∃ v s, sampleAt hw b sig sqrtObj t = some v ∧ sampleAt hw .none sig sqrtObj t = some s ∧ Same v s :=
  signals_agree hw L b sig sqrtObj t fun _ _ => ⟨⟨trivial, trivial⟩, hb, trivial⟩

/-- `[clip~]` is the same in all builds, for signals and limits that are numbers -/
theorem clip_agrees (hw : Hw) (L : Lawful hw) (b : Build) (sig : Nat → Nat → W) (t : Nat)
    (hn : ∀ n u, isNaN (sig n u) = false) :
    ∃ v s, sampleAt hw b sig clipObj t = some v ∧ sampleAt hw .none sig clipObj t = some s ∧ Same v s := by
  have hi (u n : Nat) : NotNaN hw (fun n _ => sig n u) (.inp n) := fun v hv => by
    cases hv; exact hn n u
  refine signals_agree hw L b sig clipObj t fun u _ => ⟨?_, hi u 1, ⟨hi u 0, hi u 2, trivial, trivial⟩, trivial⟩
  intro v hv
  have : v = minF hw .none (fun _ => sig 0 u) (fun _ => sig 2 u) := (Option.some.inj hv).symm
  subst this
  rcases (L.fminf _ _ (hn 0 u) (hn 2 u)).1 with h | h
  · show isNaN (hw.fminf (sig 0 u) (sig 2 u)) = false
    rw [h]; exact hn 0 u
  · show isNaN (hw.fminf (sig 0 u) (sig 2 u)) = false
    rw [h]; exact hn 2 u

/-! ### multiply and add -/

/-- the builds that round once -/
def Build.fused : Build → Bool
  | .avx f => f
  | .sse f => f
  | .neon8 => true
  | .neon7 => false
  | .none => true

/-- **Multiply-add**: the same bits in all builds that round once; `x * y + z` rounded twice in the others. -/
theorem fma_ok (hw : Hw) (b : Build) (x y z : Vec b) (i : Fin b.lanes) :
    (b.fused = true → fmaF hw b x y z i = fmaF hw .none (lane x i) (lane y i) (lane z i) 0)
    ∧ (b.fused = false → fmaF hw b x y z i = addF hw b (mulF hw b x y) z i) := by
  cases b with
  | avx f =>
    cases f
    · exact ⟨(nomatch ·), fun _ => rfl⟩
    · exact ⟨fun _ => rfl, (nomatch ·)⟩
  | sse f =>
    cases f
    · exact ⟨(nomatch ·), fun _ => rfl⟩
    · exact ⟨fun _ => rfl, (nomatch ·)⟩
  | neon8 => exact ⟨fun _ => rfl, (nomatch ·)⟩
  | neon7 => exact ⟨(nomatch ·), fun _ => rfl⟩
  | none => exact ⟨fun _ => rfl, (nomatch ·)⟩

/-- **Multiply-subtract**: in the builds that round twice it is the scalar build's, bit for bit.  The builds of ARMv8 are
not among them: see `fms_armv8_negated`. -/
theorem fms_ok (hw : Hw) (b : Build) (x y z : Vec b) (i : Fin b.lanes) (h : b.fused = false) :
    fmsF hw b x y z i = fmsF hw .none (lane x i) (lane y i) (lane z i) 0 := by
  cases b with
  | avx f => cases f <;> first | rfl | cases h
  | sse f => cases f <;> first | rfl | cases h
  | neon8 => cases h
  | neon7 => rfl
  | none => rfl

/-- On ARMv8 `__hv_fms_f` gives the difference with the **wrong sign**: with arithmetic that is symmetric (rounding to
nearest is), minus what the fused Intel build gives for the same operands. -/
theorem fms_armv8_negated (hw : Hw)
    (sym : ∀ a b c : W, Same (hw.fma (a ^^^ signBit) b (c ^^^ signBit)) (hw.fma a b c ^^^ signBit))
    (x y z : V 4 W) (i : Fin 4) :
    Same (fmsF hw .neon8 x y z i) (fmsF hw (.sse true) x y z i ^^^ signBit) := by
  have := sym (x i) (y i) (z i ^^^ signBit)
  rw [BitVec.xor_assoc, BitVec.xor_self, BitVec.xor_zero] at this
  exact this

/-! ### where the builds differ -/

/-- A comparison that holds writes a NaN in the vector builds and `1.0f` in the scalar build: its value must not be used
as a number. -/
theorem cmp_value_differs (c : Cmp) (b : Build) (hb : b ≠ .none) (x y : Vec b) (i : Fin b.lanes)
    (hx : isNaN (x i) = false) (hy : isNaN (y i) = false) (h : c.holds (x i) (y i) = true) :
    isNaN (c.fn b x y i) = true ∧ c.fn .none (lane x i) (lane y i) 0 = one := by
  constructor
  · rw [Cmp.fn_ok c b x y i (by cases c <;> trivial), if_neg hb, h]; decide
  · rw [Cmp.fn_ok c .none _ _ 0 (by cases c <;> trivial), if_pos rfl]
    show oneOf (c.holds (x i) (y i)) = one
    rw [h]; rfl

/-- "Not equal" of a NaN is false in the AVX build and true in the others. -/
theorem neq_nan_differs (f : Bool) (x y : V 8 W) (i : Fin 8) (h : isNaN (x i) = true) :
    neqF (.avx f) x y i = 0 ∧ neqF .none (lane x i) (lane y i) 0 = one := by
  constructor
  · show maskOf (!isNaN (x i) && !isNaN (y i) && !feq (x i) (y i)) = 0
    rw [h]; rfl
  · show oneOf (!feq (x i) (y i)) = one
    simp [feq, h, oneOf]

/-- **Float to integer** is the same in every build when the value is already whole (after `__floor~f`): there rounding
to the nearest and towards zero agree. -/
theorem cast_after_floor (hw : Hw) (whole : ∀ w : W, hw.nearest (hw.floor w) = hw.trunc (hw.floor w))
    (b : Build) (x : Vec b) (i : Fin b.lanes) :
    castFI hw b (floorF hw b x) i = castFI hw .none (floorF hw .none (lane x i)) 0 := by
  have hf := (unary_exact hw b x i).2.2.1
  have hn : floorF hw .none (lane x i) 0 = hw.floor (x i) := rfl
  rw [hn] at hf
  cases b with
  | avx f => show hw.nearest (floorF hw _ x i) = hw.trunc (hw.floor (x i)); rw [hf]; exact whole _
  | sse f => show hw.nearest (floorF hw _ x i) = hw.trunc (hw.floor (x i)); rw [hf]; exact whole _
  | neon8 => show hw.trunc (floorF hw _ x i) = hw.trunc (hw.floor (x i)); rw [hf]
  | neon7 => show hw.trunc (floorF hw _ x i) = hw.trunc (hw.floor (x i)); rw [hf]
  | none => rfl

/-- Otherwise it is not: SSE and AVX round to the nearest integer. -/
theorem cast_rounds (hw : Hw) (f : Bool) (x : V 4 W) (i : Fin 4) :
    castFI hw (.sse f) x i = hw.nearest (x i) ∧ castFI hw .none (lane x i) 0 = hw.trunc (x i) := ⟨rfl, rfl⟩

/-- **The binary logarithm** of the SSE and NEON builds at a power of two, `2^k` with `k` the exponent field minus 127:
`(k + 1) + (-0.9569643)`, that is about `k + 0.043`; AVX writes nothing. -/
theorem log2_power (hw : Hw) (b : Build) (hb : b ≠ .none) (x : Vec b) (e : Nat) (he : e < 255)
    (hx : ∀ i, x i = (BitVec.ofNat 32 e) <<< 23) :
    (∃ f, b = .avx f ∧ log2F hw b x = none)
    ∨ ∃ v, log2F hw b x = some v ∧ ∀ i, v i = hw.add (hw.add (hw.ofInt (BitVec.ofNat 32 e - 127#32)) one) 0xbf74fb9d#32 := by
  have low : ∀ e < 255, ((BitVec.ofNat 32 e <<< 23 : W) >>> 23) = BitVec.ofNat 32 e
      ∧ ((BitVec.ofNat 32 e <<< 23 : W).sshiftRight 23) = BitVec.ofNat 32 e
      ∧ (andnot 0xff800000#32 (BitVec.ofNat 32 e <<< 23) ||| 0x3f800000#32) = one
      ∧ (bic (BitVec.ofNat 32 e <<< 23) 0xff800000#32 ||| 0x3f800000#32) = one := by
    decide +kernel
  obtain ⟨h1, h2, h3, h4⟩ := low e he
  cases b with
  | avx f => exact Or.inl ⟨f, rfl, rfl⟩
  | sse f =>
    refine Or.inr ⟨_, rfl, fun i => ?_⟩
    show hw.add (hw.add (hw.ofInt (x i >>> 23 - 127#32)) (andnot 0xff800000#32 (x i) ||| 0x3f800000#32)) _ = _
    rw [hx i, h1, h3]
  | neon8 =>
    refine Or.inr ⟨_, rfl, fun i => ?_⟩
    show hw.add (hw.add (hw.ofInt ((x i).sshiftRight 23 - 127#32)) (bic (x i) 0xff800000#32 ||| 0x3f800000#32)) _ = _
    rw [hx i, h2, h4]
  | neon7 =>
    refine Or.inr ⟨_, rfl, fun i => ?_⟩
    show hw.add (hw.add (hw.ofInt ((x i).sshiftRight 23 - 127#32)) (bic (x i) 0xff800000#32 ||| 0x3f800000#32)) _ = _
    rw [hx i, h2, h4]
  | none => exact absurd rfl hb

/-- `sin`, `tan`, `log`, `if`, … : with assertions off nothing is written in a vector build. -/
theorem onlyScalar_vector (f : List W → W) (b : Build) (hb : b ≠ .none) (xs : List (Vec b)) :
    onlyScalar f b xs = none := by
  cases b with
  | none => exact absurd rfl hb
  | _ => rfl

/-! ### a witness -/

/-- An arithmetic that meets `Lawful`: sums and the like of anything are zero, but signs, minima and maxima are real. -/
def demoHw : Hw where
  add _ _ := 0
  sub _ _ := 0
  mul a b := if b = negOne then a ^^^ signBit else 0
  div _ _ := one
  fma _ _ _ := 0
  sqrt a := if isNaN a then a else if isZero a then a else one
  cos _ := one
  exp _ := one
  log _ := 0
  pow _ _ := one
  floor _ := 0
  ceil _ := 0
  fminf := minps
  fmaxf := maxps
  ofInt _ := 0
  trunc _ := 0
  nearest _ := 0
  recpe a := a
  rsqrte a := a
  rsqrts a _ := a
  rsqrtps a := a

theorem same_negOne {b b' : W} (h : Same b b') : (b = negOne) = (b' = negOne) := by
  have z : isZero negOne = false := by decide
  have n : isNaN negOne = false := by decide
  refine propext ⟨?_, ?_⟩ <;> rintro rfl
  · rcases h with h | ⟨h, _⟩ | ⟨h, _⟩
    · exact h.symm
    · rw [z] at h; cases h
    · rw [n] at h; cases h
  · rcases h with h | ⟨_, h⟩ | ⟨_, h⟩
    · exact h
    · rw [z] at h; cases h
    · rw [n] at h; cases h

theorem minps_law {a b : W} (ha : isNaN a = false) (hb : isNaN b = false) :
    (minps a b = a ∨ minps a b = b) ∧ fle (minps a b) a = true ∧ fle (minps a b) b = true := by
  cases hl : flt a b with
  | true =>
    have e : minps a b = a := by simp [minps, hl]
    rw [e]; exact ⟨Or.inl rfl, fle_refl ha, fle_of_flt hl⟩
  | false =>
    have e : minps a b = b := by simp [minps, hl]
    rw [e]
    refine ⟨Or.inr rfl, ?_, fle_refl hb⟩
    rcases fle_total hb ha with h | h
    · exact h
    · rw [hl] at h; cases h

theorem maxps_law {a b : W} (ha : isNaN a = false) (hb : isNaN b = false) :
    (maxps a b = a ∨ maxps a b = b) ∧ fle a (maxps a b) = true ∧ fle b (maxps a b) = true := by
  cases hl : flt b a with
  | true =>
    have e : maxps a b = a := by simp [maxps, hl]
    rw [e]; exact ⟨Or.inl rfl, fle_refl ha, fle_of_flt hl⟩
  | false =>
    have e : maxps a b = b := by simp [maxps, hl]
    rw [e]
    refine ⟨Or.inr rfl, ?_, fle_refl hb⟩
    rcases fle_total ha hb with h | h
    · exact h
    · rw [hl] at h; cases h

theorem demo_lawful : Lawful demoHw where
  add _ _ _ _ _ _ := Same.refl _
  sub _ _ _ _ _ _ := Same.refl _
  mul a a' b b' h h' := by
    show Same (if b = negOne then a ^^^ signBit else 0) (if b' = negOne then a' ^^^ signBit else 0)
    simp only [same_negOne h']
    split
    · exact neg_congr h
    · exact Same.refl _
  div _ _ _ _ _ _ _ := Same.refl _
  sqrt a a' h := by
    show Same (if isNaN a then a else if isZero a then a else one) (if isNaN a' then a' else if isZero a' then a' else one)
    rw [h.nan, h.zero]
    split
    · exact h
    · split
      · exact h
      · exact Same.refl _
  cos _ _ _ := Same.refl _
  exp _ _ _ := Same.refl _
  floor _ _ _ := Same.refl _
  ceil _ _ _ := Same.refl _
  mul_negOne a := by
    show Same (if negOne = negOne then a ^^^ signBit else 0) _
    rw [if_pos rfl]; exact Same.refl _
  fminf a b ha hb := minps_law ha hb
  fmaxf a b ha hb := maxps_law ha hb

/-- the signal 0, 1, 2, 0, … with limits 1 and 1.5: sample 5 of `[clip~]` in the AVX build is the scalar build's -/
def demoSig (n t : Nat) : W :=
  match n with
  | 0 => if t % 3 = 0 then 0 else if t % 3 = 1 then one else 0x40000000#32
  | 1 => one
  | _ => 0x3fc00000#32

example : sampleAt demoHw (.avx false) demoSig clipObj 5 = some 0x3fc00000#32
    ∧ sampleAt demoHw .neon8 demoSig clipObj 5 = some 0x3fc00000#32
    ∧ sampleAt demoHw .none demoSig clipObj 5 = some 0x3fc00000#32
    ∧ sampleAt demoHw (.sse true) demoSig clipObj 6 = some one := by decide +kernel

/-- and its hypotheses hold -/
example : ∃ v s, sampleAt demoHw (.avx false) demoSig clipObj 5 = some v
    ∧ sampleAt demoHw .none demoSig clipObj 5 = some s ∧ Same v s :=
  clip_agrees demoHw demo_lawful (.avx false) demoSig 5 (fun n u => by
    unfold demoSig
    split
    · split
      · decide
      · split <;> decide
    · decide
    · decide)

/-- a comparison that holds, in a vector build -/
example : isNaN (Cmp.gt.fn (.sse false) (fun _ => one) (fun _ => 0) 2) = true :=
  (cmp_value_differs .gt (.sse false) (by decide) _ _ 2 (by decide) (by decide) (by decide)).1

end Verif.HvMath
