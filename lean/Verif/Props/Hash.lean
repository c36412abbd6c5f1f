import Verif.Hash
import Mathlib.Tactic.IntervalCases
/-!
# Property C16: the compiler and the runtime agree on name hashes
-/
namespace Verif.Hash

/-- plain ASCII text (without NUL, which C strings cannot contain) -/
def Ascii (s : List Nat) : Prop := ∀ c ∈ s, 0 < c ∧ c < 128

theorem charToInt_ascii (signed : Bool) (c : Nat) (h : c < 128) :
    charToInt signed (BitVec.ofNat 8 c) = BitVec.ofNat 32 c := by
  unfold charToInt
  cases signed
  · simp only [Bool.false_eq_true, if_false]
    apply BitVec.eq_of_toNat_eq
    simp
    omega
  · simp only [if_true]
    rw [BitVec.signExtend_eq_setWidth_of_msb_false]
    · apply BitVec.eq_of_toNat_eq
      simp
      omega
    · rw [BitVec.msb_eq_false_iff_two_mul_lt]
      simp
      omega

theorem word_ascii (a b c d : Nat) (ha : a < 128) (hb : b < 128) (hc : c < 128) (hd : d < 128) :
    (word (BitVec.ofNat 8 a) (BitVec.ofNat 8 b) (BitVec.ofNat 8 c) (BitVec.ofNat 8 d)).toNat =
      a + b * 2^8 + c * 2^16 + d * 2^24 := by
  unfold word
  simp only [BitVec.toNat_append, BitVec.toNat_ofNat]
  rw [Nat.mod_eq_of_lt (by omega), Nat.mod_eq_of_lt (by omega), Nat.mod_eq_of_lt (by omega),
    Nat.mod_eq_of_lt (by omega)]
  rw [← Nat.shiftLeft_add_eq_or_of_lt (by omega), ← Nat.shiftLeft_add_eq_or_of_lt (by omega),
    ← Nat.shiftLeft_add_eq_or_of_lt (by omega)]
  simp only [Nat.shiftLeft_eq]
  omega

theorem wordEm_ascii (signed : Bool) (a b c d : Nat) (ha : a < 128) (hb : b < 128) (hc : c < 128) (hd : d < 128) :
    wordEm signed (BitVec.ofNat 8 a) (BitVec.ofNat 8 b) (BitVec.ofNat 8 c) (BitVec.ofNat 8 d) =
      word (BitVec.ofNat 8 a) (BitVec.ofNat 8 b) (BitVec.ofNat 8 c) (BitVec.ofNat 8 d) := by
  apply BitVec.eq_of_toNat_eq
  rw [word_ascii a b c d ha hb hc hd]
  unfold wordEm
  rw [charToInt_ascii _ _ ha, charToInt_ascii _ _ hb, charToInt_ascii _ _ hc, charToInt_ascii _ _ hd]
  simp only [BitVec.toNat_or, BitVec.toNat_shiftLeft, BitVec.toNat_ofNat, Nat.shiftLeft_eq]
  rw [Nat.mod_eq_of_lt (a := a) (by omega), Nat.mod_eq_of_lt (a := b) (by omega),
    Nat.mod_eq_of_lt (a := c) (by omega), Nat.mod_eq_of_lt (a := d) (by omega),
    Nat.mod_eq_of_lt (a := b * 2^8) (by omega), Nat.mod_eq_of_lt (a := c * 2^16) (by omega),
    Nat.mod_eq_of_lt (a := d * 2^24) (by omega)]
  rw [Nat.or_comm a, ← Nat.shiftLeft_eq, ← Nat.shiftLeft_add_eq_or_of_lt (by omega),
    Nat.or_comm _ (c * 2^16), ← Nat.shiftLeft_eq, ← Nat.shiftLeft_add_eq_or_of_lt (by rw [Nat.shiftLeft_eq]; omega),
    Nat.or_comm _ (d * 2^24), ← Nat.shiftLeft_eq,
    ← Nat.shiftLeft_add_eq_or_of_lt (by simp only [Nat.shiftLeft_eq]; omega)]
  simp only [Nat.shiftLeft_eq]
  omega

theorem and_mask (n : Nat) : n &&& 0xFFFFFFFF = n % 2^32 := Nat.and_two_pow_sub_one_eq_mod n 32

theorem mul_step (k : BitVec 32) : (k.toNat * mulP) &&& 0xFFFFFFFF = (k * mulC).toNat := by
  rw [and_mask, BitVec.toNat_mul]; rfl

theorem utf8s_ascii (a b c d : Nat) (ha : a < 128) (hb : b < 128) (hc : c < 128) (hd : d < 128) :
    pyWord a b c d = some (a + b * 2^8 + c * 2^16 + d * 2^24) := by
  have e (x : Nat) (hx : x < 128) : utf8 x = some [x] := by simp [utf8, hx]
  simp [pyWord, utf8s, e, ha, hb, hc, hd]

theorem loop_agree (signed em : Bool) : ∀ (s : List Nat) (_ : ∀ c ∈ s, c < 128) (h : BitVec 32),
    ∃ l, loopP h.toNat s = some ((loopC (if em then wordEm signed else word) h (s.map (BitVec.ofNat 8))).1.toNat, l) ∧
      (loopC (if em then wordEm signed else word) h (s.map (BitVec.ofNat 8))).2 = l.map (BitVec.ofNat 8) ∧
      l.length < 4 ∧ ∀ c ∈ l, c < 128
  | a :: b :: c :: d :: rest, hs, h => by
    have ha : a < 128 := hs a (by simp)
    have hb : b < 128 := hs b (by simp)
    have hc : c < 128 := hs c (by simp)
    have hd : d < 128 := hs d (by simp)
    have hw : (if em then wordEm signed else word) (BitVec.ofNat 8 a) (BitVec.ofNat 8 b) (BitVec.ofNat 8 c) (BitVec.ofNat 8 d) =
        word (BitVec.ofNat 8 a) (BitVec.ofNat 8 b) (BitVec.ofNat 8 c) (BitVec.ofNat 8 d) := by
      cases em
      · rfl
      · exact wordEm_ascii signed a b c d ha hb hc hd
    simp only [List.map_cons, loopC, hw]
    obtain ⟨l, h1, h2, h3, h4⟩ := loop_agree signed em rest (fun c hc => hs c (by simp [hc]))
      ((h * mulC) ^^^ mixC (word (BitVec.ofNat 8 a) (BitVec.ofNat 8 b) (BitVec.ofNat 8 c) (BitVec.ofNat 8 d)))
    refine ⟨l, ?_, h2, h3, h4⟩
    rw [loopP, utf8s_ascii a b c d ha hb hc hd, ← word_ascii a b c d ha hb hc hd]
    simp only [bind, Option.bind, mul_step]
    rw [← h1]
    congr 1
    rw [BitVec.toNat_xor]
    congr 1
    unfold mixC
    simp only
    rw [← mul_step ((word _ _ _ _ * mulC) ^^^ _), BitVec.toNat_xor, BitVec.toNat_ushiftRight]
  | [], _, h => ⟨[], rfl, rfl, by simp, by simp⟩
  | [a], hs, h => ⟨[a], rfl, rfl, by simp, hs⟩
  | [a, b], hs, h => ⟨[a, b], rfl, rfl, by simp, hs⟩
  | [a, b, c], hs, h => ⟨[a, b, c], rfl, rfl, by simp, hs⟩

theorem shl_ascii (c k : Nat) (hc : c < 128) (hk : k ≤ 16) :
    (c <<< k) &&& 0xFFFFFFFF = (BitVec.ofNat 32 c <<< k).toNat := by
  rw [and_mask, BitVec.toNat_shiftLeft, BitVec.toNat_ofNat, Nat.mod_eq_of_lt (a := c) (by omega)]

theorem nat_ascii (c : Nat) (hc : c < 128) : c = (BitVec.ofNat 32 c).toNat := by
  simp; omega

theorem tail_agree (signed : Bool) (l : List Nat) (hl : l.length < 4) (hs : ∀ c ∈ l, c < 128) (x : BitVec 32) :
    tailP x.toNat l = (tailC signed x (l.map (BitVec.ofNat 8))).toNat := by
  match l, hl, hs with
  | [], _, _ => rfl
  | [a], _, hs =>
    have ha : a < 128 := hs a (by simp)
    simp only [tailP, tailC, List.map, charToInt_ascii signed a ha, List.length_cons, List.length_nil]
    simp only [Nat.zero_add, ge_iff_le, Nat.reduceLeDiff, if_false, List.getD_cons_zero, if_true, Nat.le_refl]
    rw [← mul_step, BitVec.toNat_xor, ← nat_ascii a ha]
  | [a, b], _, hs =>
    have ha : a < 128 := hs a (by simp)
    have hb : b < 128 := hs b (by simp)
    simp only [tailP, tailC, List.map, charToInt_ascii signed a ha, charToInt_ascii signed b hb,
      List.length_cons, List.length_nil]
    simp only [Nat.zero_add, ge_iff_le, Nat.reduceAdd, Nat.reduceLeDiff, if_false, List.getD_cons_zero, if_true,
      Nat.le_refl, List.getD_cons_succ]
    rw [← mul_step, BitVec.toNat_xor, BitVec.toNat_xor, ← nat_ascii a ha, shl_ascii b 8 hb (by omega)]
  | [a, b, c], _, hs =>
    have ha : a < 128 := hs a (by simp)
    have hb : b < 128 := hs b (by simp)
    have hc : c < 128 := hs c (by simp)
    simp only [tailP, tailC, List.map, charToInt_ascii signed a ha, charToInt_ascii signed b hb,
      charToInt_ascii signed c hc, List.length_cons, List.length_nil]
    simp only [Nat.zero_add, ge_iff_le, Nat.reduceAdd, Nat.reduceLeDiff, List.getD_cons_zero, if_true,
      Nat.le_refl, List.getD_cons_succ]
    rw [← mul_step, BitVec.toNat_xor, BitVec.toNat_xor, BitVec.toNat_xor, ← nat_ascii a ha,
      shl_ascii b 8 hb (by omega), shl_ascii c 16 hc (by omega)]

theorem fin_agree (x : BitVec 32) : finP x.toNat = (finC x).toNat := by
  unfold finP finC
  simp only
  rw [BitVec.toNat_xor, BitVec.toNat_ushiftRight, ← mul_step, BitVec.toNat_xor, BitVec.toNat_ushiftRight]

/-- **C16** For every ASCII name other than `bang`, of any length below 2^32, the number the Python
compiler computes is the one `hv_string_to_hash` computes on the same characters, on platforms with
signed or unsigned `char`, with or without the Emscripten load.
Partial: not for `bang` and not for non-ASCII names, where it is false (below). -/
theorem hash_agree_partial (signed em : Bool) (s : List Nat) (hs : Ascii s) (hb : s ≠ bangStr)
    (hlen : s.length < 2^32) :
    pyHash s = some (cHash signed em (s.map (BitVec.ofNat 8))).toNat := by
  unfold pyHash cHash
  rw [if_neg hb]
  have hl : s.length = (BitVec.ofNat 32 (s.map (BitVec.ofNat 8)).length).toNat := by
    simp; omega
  rw [hl]
  obtain ⟨l, h1, h2, h3, h4⟩ := loop_agree signed em s (fun c hc => (hs c hc).2)
    (BitVec.ofNat 32 (s.map (BitVec.ofNat 8)).length)
  rw [h1]
  simp only [bind, Option.bind, h2]
  rw [tail_agree signed l h3 h4, fin_agree]

/-- The generated code of a target without and one with signed `char` use the same numbers for ASCII
names, so a name hashed by one build of the runtime means the same in another. -/
theorem hash_platform_independent (signed em signed' em' : Bool) (s : List Nat) (hs : Ascii s) (hb : s ≠ bangStr)
    (hlen : s.length < 2^32) :
    cHash signed em (s.map (BitVec.ofNat 8)) = cHash signed' em' (s.map (BitVec.ofNat 8)) := by
  have h1 := hash_agree_partial signed em s hs hb hlen
  rw [hash_agree_partial signed' em' s hs hb hlen] at h1
  exact BitVec.eq_of_toNat_eq (Option.some.inj h1).symm

/-- **C16 is false for the name `bang`** (finding F7): a receiver called `bang` is compiled to
`0xFFFFFFFF`, but `hv_stringToHash("bang")` is a different number. -/
theorem hash_bang_differs (signed em : Bool) :
    pyHash bangStr ≠ some (cHash signed em (bangStr.map (BitVec.ofNat 8))).toNat := by
  cases signed <;> cases em <;> decide +kernel

/-- **C16 is false for non-ASCII names** (finding F7): `é` is one code point for Python, two UTF-8 bytes for
the runtime. -/
theorem hash_nonascii_differs (signed em : Bool) :
    utf8s [0xE9] = some [0xC3, 0xA9] ∧
    pyHash [0xE9] ≠ some (cHash signed em [0xC3, 0xA9]).toNat := by
  cases signed <;> cases em <;> decide +kernel

/-- and for a non-ASCII character in the first four characters of a longer name the compiler stops with an
exception -/
theorem hash_nonascii_raises (a b c : Nat) (ha : a < 128) (hb : b < 128) (hc : c < 128) (rest : List Nat) :
    pyHash (0xE9 :: a :: b :: c :: rest) = none := by
  have e (x : Nat) (hx : x < 128) : utf8 x = some [x] := by simp [utf8, hx]
  have e9 : utf8 0xE9 = some [0xC3, 0xA9] := by decide
  unfold pyHash
  rw [if_neg (by simp [bangStr])]
  simp [loopP, pyWord, utf8s, e, ha, hb, hc, e9]

/-- **C16 (reserved names)** every hash constant written into the target templates is the hash of the
receiver name it stands for, as the compiler and as the runtime compute it (the whole table). -/
theorem reserved_hashes_correct (signed em : Bool) : ∀ e ∈ reserved,
    pyHash (e.1.toList.map (·.toNat)) = some e.2 ∧
    (cHash signed em (e.1.toList.map fun c => BitVec.ofNat 8 c.toNat)).toNat = e.2 := by
  cases signed <;> cases em <;> decide +kernel

/-- non-vacuity: `__hv_init` is an ASCII name, and has this hash -/
example : Ascii ("__hv_init".toList.map (·.toNat)) ∧
    pyHash ("__hv_init".toList.map (·.toNat)) = some 0xCE5CC65B := by
  constructor
  · unfold Ascii; decide +kernel
  · decide +kernel

end Verif.Hash
